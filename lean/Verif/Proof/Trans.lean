import Verif.Model.Device
import Mathlib.Tactic.Tauto
/-!
# The transitions of the device, one constructor per kind
-/
namespace Ergo

/-- The sign subcommands between start and confirmation. -/
def signOp (env : Env) (key : Bytes) (p : P2pk) (sub : UInt8) (data : Bytes) : OpRes :=
  if sub = 0x10 then opStart p data
  else if sub = 0x11 then p.addTokens data
  else if sub = 0x12 then opFrame env key p data
  else if sub = 0x13 then p.addExtension data
  else if sub = 0x14 then p.addDataInputs data
  else if sub = 0x15 then opOutput p data
  else if sub = 0x16 then p.addOutputTree env data
  else if sub = 0x17 then opFee env p data
  else if sub = 0x18 then opChange env p data
  else if sub = 0x19 then p.addOutputTokens env data
  else p.addOutputRegisters env data

/-- The attest subcommands after the start. -/
def attestOp (env : Env) (key : Bytes) (x : AttestCtx) (sub : UInt8) (data : Bytes) : AttestRes :=
  if sub = 0x02 then x.addTree env data
  else if sub = 0x03 then x.addTokens env data
  else if sub = 0x04 then x.addRegisters env data
  else x.getFrame env key data

/-- A status word that leaves the device as it is. -/
def neutralSw (d : Device) (cla ins : UInt8) (data : Bytes) (sw : UInt16) : Prop :=
  sw = Sw.busy ∧ d.busy = true ∨ sw = Sw.wrongP1P2 ∨ sw = Sw.claNotSupported ∧ cla ≠ 0xE0 ∨
    sw = Sw.insNotSupported ∧ ins ≠ 0x10 ∧ ins ≠ 0x11 ∧ ins ≠ 0x20 ∧ ins ≠ 0x21 ∨
    sw = Sw.wrongDataLength ∧ 255 < data.length

/-- Steps of the flow asking for the start of signing. -/
def signInitSteps (d : Device) (t : List Char) (token : UInt32) : List FlowStep :=
  .pathApprove ⟨.p2pkSigning, .text t⟩ :: (if isKnown d.connectedApp token then [] else [appIdPage token])
/-- Steps of the flow asking for an attestation. -/
def attestSteps (token : UInt32) : List FlowStep :=
  .info ⟨.confirmAttest, .nothing⟩ :: (if token ≠ 0 then [appIdPage token] else [])
/-- Steps of the flow asking for the export of an extended public key. -/
def epkSteps (t : List Char) (token : UInt32) : List FlowStep :=
  [.info ⟨.extPubKeyExport, .nothing⟩, .info ⟨.path, .text t⟩] ++
    (if token ≠ 0 then [appIdPage token] else [])
/-- Steps of the flow asking for sending an address. -/
def daSendSteps (t : List Char) (token : UInt32) : List FlowStep :=
  [.info ⟨.confirmSendAddress, .nothing⟩, .info ⟨.path, .text t⟩] ++
    (if token ≠ 0 then [appIdPage token] else [])
/-- Steps of the flow showing an address. -/
def daShowSteps (t a : List Char) (token : UInt32) : List FlowStep :=
  [.info ⟨.confirmAddress, .nothing⟩, .info ⟨.path, .text t⟩, .info ⟨.address, .text a⟩] ++
    (if token ≠ 0 then [appIdPage token] else [])

/-- Neither success nor one of the status words that leave the device as it is. -/
abbrev Ends (e : UInt16) : Prop :=
  e ≠ Sw.ok ∧ e ≠ Sw.busy ∧ e ≠ Sw.wrongP1P2 ∧ e ≠ Sw.claNotSupported ∧ e ≠ Sw.insNotSupported ∧
    e ≠ Sw.wrongDataLength

/-- All transitions. -/
inductive Trans (env : Env) (nanoS : Bool) (d : Device) : Event → Device → Reply → Prop
  | neutral {cla ins p1 p2 data rnd sw} (h : neutralSw d cla ins data sw) :
    Trans env nanoS d (.apdu cla ins p1 p2 data rnd) d (status sw)
  | version {p1 p2 data rnd} (hl : data.length ≤ 255) :
    Trans env nanoS d (.apdu 0xE0 0x01 p1 p2 data rnd) d (.sw Sw.ok env.appVersion)
  | name {p1 p2 data rnd} (hl : data.length ≤ 255) :
    Trans env nanoS d (.apdu 0xE0 0x02 p1 p2 data rnd) d (.sw Sw.ok env.appName)
  | abort {ins p1 p2 data rnd sw} (hb : d.busy = false) (hsw : sw ≠ Sw.ok)
      (hi : ins = 0x10 ∨ ins = 0x11 ∨ ins = 0x20 ∨ ins = 0x21)
      (he : Ends sw ∨ sw = Sw.wrongP1P2 ∧ ins = 0x20 ∧ p1 = 1 ∧ p2 ≠ 0) :
    Trans env nanoS d (.apdu 0xE0 ins p1 p2 data rnd) (d.setCommand .none) (status sw)
  | deriveFail {p1 p2 data rnd} (hb : d.busy = false) :
    Trans env nanoS d (.apdu 0xE0 0x11 p1 p2 data rnd) (d.setCommand .deriveAddress)
      (status Sw.addressGenerationFailed)
  | epkSend {p1 p2 data rnd path token pub chain} (hb : d.busy = false) (h1 : p1 = 1 ∨ p1 = 2)
      (hp : parsePathToken data (p1 = 2) = .ok (path, token))
      (hv : pathValidate path .accountGe3) (hg : env.genPublic path = some (pub, chain))
      (hk : isKnown token d.connectedApp) :
    Trans env nanoS d (.apdu 0xE0 0x10 p1 p2 data rnd) (d.setCommand .none)
      (.sw Sw.ok (epkResponse pub chain))
  | epkAsk {p1 p2 data rnd path token pub chain t} (hb : d.busy = false) (h1 : p1 = 1 ∨ p1 = 2)
      (hp : parsePathToken data (p1 = 2) = .ok (path, token))
      (hv : pathValidate path .accountGe3) (hg : env.genPublic path = some (pub, chain))
      (hk : isKnown token d.connectedApp = false) (hf : pathFormat path bip32StrLen = some t) :
    Trans env nanoS d (.apdu 0xE0 0x10 p1 p2 data rnd)
      (({ d.setCommand .extPubKey with ctx := .extPub ⟨pub, chain, token⟩ }).display
        (.static (epkSteps t token)) .extPubKey) .wait
  | daSend {p1 p2 data rnd network rest path token pub chain raw} (hb : d.busy = false)
      (h1 : p1 = 1) (h2 : p2 = 1 ∨ p2 = 2) (hd : data = network :: rest)
      (hp : parsePathToken rest (p2 = 2) = .ok (path, token))
      (hv : pathValidate path .addressGe5) (hg : env.genPublic path = some (pub, chain))
      (ha : addressFromPubkey env network pub = some raw) (hk : isKnown token d.connectedApp) :
    Trans env nanoS d (.apdu 0xE0 0x11 p1 p2 data rnd) (d.setCommand .none) (.sw Sw.ok raw)
  | daAskSend {p1 p2 data rnd network rest path token pub chain raw t} (hb : d.busy = false)
      (h1 : p1 = 1) (h2 : p2 = 1 ∨ p2 = 2) (hd : data = network :: rest)
      (hp : parsePathToken rest (p2 = 2) = .ok (path, token))
      (hv : pathValidate path .addressGe5) (hg : env.genPublic path = some (pub, chain))
      (ha : addressFromPubkey env network pub = some raw)
      (hk : isKnown token d.connectedApp = false) (hf : pathFormat path bip32StrLen = some t) :
    Trans env nanoS d (.apdu 0xE0 0x11 p1 p2 data rnd)
      (({ d.setCommand .deriveAddress with ctx := .derive ⟨raw, token, true⟩ }).display
        (.static (daSendSteps t token)) .deriveAddress) .wait
  | daAskShow {p1 p2 data rnd network rest path token pub chain raw t a} (hb : d.busy = false)
      (h1 : p1 = 2) (h2 : p2 = 1 ∨ p2 = 2) (hd : data = network :: rest)
      (hp : parsePathToken rest (p2 = 2) = .ok (path, token))
      (hv : pathValidate path .addressGe5) (hg : env.genPublic path = some (pub, chain))
      (ha : addressFromPubkey env network pub = some raw)
      (hf : pathFormat path bip32StrLen = some t)
      (hs : base58Encode raw addressStrLen = some a) (hl : a.length < addressStrLen) :
    Trans env nanoS d (.apdu 0xE0 0x11 p1 p2 data rnd)
      (({ d.setCommand .deriveAddress with ctx := .derive ⟨raw, token, false⟩ }).display
        (.static (daShowSteps t a token)) .deriveAddress) .wait
  | attestHang {p2 data rnd} (hb : d.busy = false) :
    Trans env nanoS d (.apdu 0xE0 0x20 0x01 p2 data rnd) (d.setCommand .attestInput) .hang
  | attestKnown {p2 data rnd x s} (hb : d.busy = false) (h2 : p2 = 1 ∨ p2 = 2)
      (hi : attestInit data (p2 = 2) 0 = .ok x) (hs : newSession 0 rnd.u8s = some s)
      (hk : isKnown d.connectedApp x.token) :
    Trans env nanoS d (.apdu 0xE0 0x20 0x01 p2 data rnd)
      { d.setCommand .attestInput with ctx := .attest { x with session := s, state := .approved } }
      (.sw Sw.ok [s])
  | attestAsk {p2 data rnd x s} (hb : d.busy = false) (h2 : p2 = 1 ∨ p2 = 2)
      (hi : attestInit data (p2 = 2) 0 = .ok x) (hs : newSession 0 rnd.u8s = some s)
      (hk : isKnown d.connectedApp x.token = false) :
    Trans env nanoS d (.apdu 0xE0 0x20 0x01 p2 data rnd)
      (({ d.setCommand .attestInput with ctx := .attest { x with session := s } }).display
        (.static (attestSteps x.token)) .attest) .wait
  | attestOk {sub p2 data rnd x x' out} (hb : d.busy = false) (hl : data.length ≤ 255)
      (hsub : sub = 2 ∨ sub = 3 ∨ sub = 4 ∨ sub = 5) (hc : d.command = .attestInput)
      (hx : d.ctx = .attest x) (hs : p2 = x.session)
      (ho : attestOp env d.sessionKey x sub data = .ok x' out) :
    Trans env nanoS d (.apdu 0xE0 0x20 sub p2 data rnd) { d with ctx := .attest x' } (.sw Sw.ok out)
  | attestUb {sub p2 data rnd} (hb : d.busy = false) (hl : data.length ≤ 255)
      (hc : d.command = .attestInput)
      (h : (∀ x, d.ctx ≠ .attest x) ∨
        ∃ x, d.ctx = .attest x ∧ attestOp env d.sessionKey x sub data = .ub) :
    Trans env nanoS d (.apdu 0xE0 0x20 sub p2 data rnd) d .ub
  | signHang {p2 data rnd} (hb : d.busy = false) :
    Trans env nanoS d (.apdu 0xE0 0x21 0x01 p2 data rnd) (d.setCommand .signTransaction) .hang
  | signInitUb {p2 data rnd path network} (hb : d.busy = false)
      (h : p2pkInit env path network rnd.keys = .ub) :
    Trans env nanoS d (.apdu 0xE0 0x21 0x01 p2 data rnd) (d.setCommand .signTransaction) .ub
  | signAsk {p2 data rnd network path token p s t} (hb : d.busy = false) (h2 : p2 = 1 ∨ p2 = 2)
      (hp : parseSignInit data (p2 = 2) = .ok (network, path, token))
      (hi : p2pkInit env path network rnd.keys = .ok p) (hs : newSession 0 rnd.u8s = some s)
      (hf : pathFormat path bip32StrLen = some t) :
    Trans env nanoS d (.apdu 0xE0 0x21 0x01 p2 data rnd)
      (({ d.setCommand .signTransaction with
          ctx := .sign ⟨false, s, { p with u := .uiApprove token }⟩ }).display
        (.static (signInitSteps d t token)) .signInit) .wait
  | signOk {sub p2 data rnd x p} (hb : d.busy = false) (hl : data.length ≤ 255)
      (hsub : 0x10 ≤ sub ∧ sub ≤ 0x1A) (hc : d.command = .signTransaction)
      (hx : d.ctx = .sign x) (hs : p2 = x.session) (ha : x.approved)
      (ho : signOp env d.sessionKey x.p sub data = .ok p)
      (hn : sub < 0x16 ∨ p.shouldShow = some false) :
    Trans env nanoS d (.apdu 0xE0 0x21 sub p2 data rnd) { d with ctx := .sign { x with p := p } }
      (status Sw.ok)
  | signShow {sub p2 data rnd x p t o} (hb : d.busy = false) (hl : data.length ≤ 255)
      (hsub : 0x16 ≤ sub ∧ sub ≤ 0x1A) (hc : d.command = .signTransaction)
      (hx : d.ctx = .sign x) (hs : p2 = x.session) (ha : x.approved)
      (ho : signOp env d.sessionKey x.p sub data = .ok p) (hn : p.shouldShow = some true)
      (hu : p.u = .transaction t) (hout : t.out = some o) :
    Trans env nanoS d (.apdu 0xE0 0x21 sub p2 data rnd)
      (({ d with ctx := .sign { x with p := { p with u := .transaction { t with lastChange := [] } } }
        }).display (.dynamic ⟨.confirmOutput, .nothing⟩ (outputScreenCount o)) .signOutput) .wait
  | signUb {sub p2 data rnd} (hb : d.busy = false) (hl : data.length ≤ 255)
      (hc : d.command = .signTransaction)
      (h : (∀ x, d.ctx ≠ .sign x) ∨ ∃ x, d.ctx = .sign x ∧ x.approved ∧
        (signOp env d.sessionKey x.p sub data = .ub ∨
          ∃ p, signOp env d.sessionKey x.p sub data = .ok p ∧ 0x16 ≤ sub ∧ sub ≤ 0x1A ∧
            (p.shouldShow = none ∨ p.shouldShow = some true ∧
              ∀ t, p.u = .transaction t → t.out = none))) :
    Trans env nanoS d (.apdu 0xE0 0x21 sub p2 data rnd) d .ub
  | signConfirm {p2 data rnd x} (hb : d.busy = false) (hl : data.length ≤ 255)
      (hc : d.command = .signTransaction)
      (hx : d.ctx = .sign x) (hs : p2 = x.session) (ha : x.approved)
      (hp : x.p.state = .txFinished) :
    Trans env nanoS d (.apdu 0xE0 0x21 0x20 p2 data rnd)
      (({ d with ctx := .sign { x with p := { x.p with state := .finalized, u := .uiConfirm } }
        }).display (.dynamic ⟨.approveSigning, .nothing⟩ (txScreenCount x.p.amounts)) .signTx) .wait
  | idle {e} (he : e = .left ∨ e = .right ∨ e = .both) (hs : d.screen = none) :
    Trans env nanoS d e d .wait
  | move {e s m} (he : e = .left ∧ m = s.flow.left ∨ e = .right ∧ m = s.flow.right)
      (hs : d.screen = some s)
      (hm : ∀ k, m.draw = some k → ∃ p, d.show env nanoS s.cb k = .page p) :
    Trans env nanoS d e { d with screen := some { s with flow := m.flow } } .wait
  | moveErr {e s m k sw} (he : e = .left ∧ m = s.flow.left ∨ e = .right ∧ m = s.flow.right)
      (hs : d.screen = some s) (hm : m.draw = some k) (hk : d.show env nanoS s.cb k = .err sw) :
    Trans env nanoS d e (d.setCommand .none).menu (status sw)
  | moveUb {e s m k} (he : e = .left ∧ m = s.flow.left ∨ e = .right ∧ m = s.flow.right)
      (hs : d.screen = some s) (hm : m.draw = some k) (hk : d.show env nanoS s.cb k = .ub) :
    Trans env nanoS d e d .ub
  | click {s} (hs : d.screen = some s) (h1 : s.flow.here ≠ .approve) (h2 : s.flow.here ≠ .reject)
      (h3 : ∀ p, s.flow.here ≠ .pathApprove p) : Trans env nanoS d .both d .wait
  | reject {s} (hs : d.screen = some s) (h1 : s.flow.here = .reject) :
    Trans env nanoS d .both (d.setCommand .none).menu (status Sw.deny)
  | okEpk {s x} (hs : d.screen = some s)
      (h1 : s.flow.here = .approve ∨ ∃ p, s.flow.here = .pathApprove p)
      (hcb : s.cb = .extPubKey) (hx : d.ctx = .extPub x) :
    Trans env nanoS d .both ((({ d with connectedApp := x.token }).setCommand .none).menu)
      (.sw Sw.ok (epkResponse x.pub x.chain))
  | okDa {s x} (hs : d.screen = some s)
      (h1 : s.flow.here = .approve ∨ ∃ p, s.flow.here = .pathApprove p)
      (hcb : s.cb = .deriveAddress) (hx : d.ctx = .derive x) :
    Trans env nanoS d .both ((({ d with connectedApp := x.token }).setCommand .none).menu)
      (.sw Sw.ok (if x.send then x.raw else []))
  | okAttest {s x} (hs : d.screen = some s)
      (h1 : s.flow.here = .approve ∨ ∃ p, s.flow.here = .pathApprove p)
      (hcb : s.cb = .attest) (hx : d.ctx = .attest x) :
    Trans env nanoS d .both
      (({ d with busy := false, connectedApp := x.token
                 ctx := .attest { x with state := .approved } }).menu) (.sw Sw.ok [x.session])
  | okSignInit {s x token} (hs : d.screen = some s)
      (h1 : s.flow.here = .approve ∨ ∃ p, s.flow.here = .pathApprove p)
      (hcb : s.cb = .signInit) (hx : d.ctx = .sign x) (hu : x.p.u = .uiApprove token) :
    Trans env nanoS d .both
      (({ d with busy := false, connectedApp := token
                 ctx := .sign { x with approved := true } }).menu) (.sw Sw.ok [x.session])
  | okSignOutput {s x t o last} (hs : d.screen = some s)
      (h1 : s.flow.here = .approve ∨ ∃ p, s.flow.here = .pathApprove p)
      (hcb : s.cb = .signOutput) (hx : d.ctx = .sign x) (hu : x.p.u = .transaction t)
      (hout : t.out = some o)
      (hl : o.type = .bip32 ∧ o.data = .path last ∨ o.type ≠ .bip32 ∧ last = []) :
    Trans env nanoS d .both
      (({ d with busy := false
                 ctx := .sign { x with p := { x.p with u := .transaction { t with lastChange := last } } }
        }).menu) (status Sw.ok)
  | okSignTx {s x sig} (hs : d.screen = some s)
      (h1 : s.flow.here = .approve ∨ ∃ p, s.flow.here = .pathApprove p)
      (hcb : s.cb = .signTx) (hx : d.ctx = .sign x) (hsig : x.p.sendResponse env = .ok sig) :
    Trans env nanoS d .both (d.setCommand .none).menu (.sw Sw.ok sig)
  | failSignTx {s x sw} (hs : d.screen = some s)
      (h1 : s.flow.here = .approve ∨ ∃ p, s.flow.here = .pathApprove p)
      (hcb : s.cb = .signTx) (hx : d.ctx = .sign x) (hsig : x.p.sendResponse env = .error sw) :
    Trans env nanoS d .both (d.setCommand .none).menu (status sw)
  | actUb {s ok} (hs : d.screen = some s)
      (h1 : s.flow.here = .approve ∨ s.flow.here = .reject ∨ ∃ p, s.flow.here = .pathApprove p)
      (h : (d.act env s.cb ok).2 = .ub) :
    Trans env nanoS d .both d .ub


theorem FullErr.sw_ends (e : FullErr) : Ends e.sw := by cases e <;> decide
theorem BoxErr.sw_ends (e : BoxErr) : Ends e.sw := by cases e <;> decide
theorem FullErr.sw_ne_ok (e : FullErr) : e.sw ≠ Sw.ok := e.sw_ends.1
theorem BoxErr.sw_ne_ok (e : BoxErr) : e.sw ≠ Sw.ok := e.sw_ends.1

theorem withTx_err {p : P2pk} {f : FullSt → FullSt × Res FullErr} {e : UInt16}
    (h : p.withTx f = .err e) : Ends e := by
  unfold P2pk.withTx at h
  split at h
  · split at h
    · simp at h
    · simp at h
    · simp only [OpRes.err.injEq] at h; rw [← h]; exact FullErr.sw_ends _
    · simp at h
  · simp at h

theorem withOut_err {p : P2pk} {f : FullSt → FullSt × Res FullErr} {g : OutInfo → Bool → OutRes}
    {e : UInt16} (h : p.withOut f g = .err e) : Ends e := by
  unfold P2pk.withOut at h
  split at h
  · simp only [OpRes.err.injEq] at h; rw [← h]; decide
  · split at h
    · split at h
      · simp at h
      · split at h
        · simp only [OpRes.err.injEq] at h; rw [← h]; exact FullErr.sw_ends _
        · simp at h
        · split at h
          · simp only [OpRes.err.injEq] at h; rw [← h]; decide
          · simp at h
          · simp at h
    · simp at h

theorem addInputTokens_err {p : P2pk} {b : Bytes} {i : UInt8} {t : Bytes} {e : UInt16}
    (h : p.addInputTokens b i t = .err e) : Ends e := by
  unfold P2pk.addInputTokens at h
  split at h
  · simp only [OpRes.err.injEq] at h; rw [← h]; decide
  · exact withTx_err h

theorem parseStart_err {d : Bytes} {e : UInt16} (h : parseStart d = .error e) : Ends e := by
  unfold parseStart at h
  repeat' split at h
  all_goals simp only [Except.error.injEq, reduceCtorEq] at h
  all_goals (rw [← h]; decide)

theorem parseOutput_err {d : Bytes} {e : UInt16} (h : parseOutput d = .error e) : Ends e := by
  unfold parseOutput at h
  repeat' split at h
  all_goals simp only [Except.error.injEq, reduceCtorEq] at h
  all_goals (rw [← h]; decide)

theorem parsePathToken_err {d : Bytes} {b : Bool} {e : UInt16}
    (h : parsePathToken d b = .error e) : Ends e := by
  unfold parsePathToken at h
  repeat' split at h
  all_goals simp only [Except.error.injEq, reduceCtorEq] at h
  all_goals (rw [← h]; decide)

theorem parseSignInit_err {d : Bytes} {b : Bool} {e : UInt16}
    (h : parseSignInit d b = .error e) : Ends e := by
  unfold parseSignInit at h
  repeat' split at h
  all_goals simp only [Except.error.injEq, reduceCtorEq] at h
  all_goals (rw [← h]; decide)

theorem attestParse_err {d : Bytes} {b : Bool} {e : UInt16}
    (h : attestParse d b = .error e) : Ends e := by
  unfold attestParse at h
  repeat' split at h
  all_goals simp only [Except.error.injEq, reduceCtorEq] at h
  all_goals (rw [← h]; decide)

theorem attestInit_err {d : Bytes} {b : Bool} {s : UInt8} {e : UInt16}
    (h : attestInit d b s = .error e) : Ends e := by
  unfold attestInit at h
  split at h
  · rename_i hp
    simp only [Except.error.injEq] at h; rw [← h]; exact attestParse_err hp
  · split at h
    · simp only [Except.error.injEq] at h; rw [← h]; exact BoxErr.sw_ends _
    · simp at h

theorem p2pkInit_err {env : Env} {path : List UInt32} {n : UInt8} {k : Nat → Bytes} {e : UInt16}
    (h : p2pkInit env path n k = .err e) : Ends e := by
  unfold p2pkInit at h
  repeat' split at h
  all_goals simp only [OpRes.err.injEq, reduceCtorEq] at h
  all_goals (rw [← h]; decide)

theorem signOp_err {env : Env} {key : Bytes} {p : P2pk} {sub : UInt8} {data : Bytes} {e : UInt16}
    (h : signOp env key p sub data = .err e) : Ends e := by
  unfold signOp at h
  split at h
  · unfold opStart at h
    split at h
    · rename_i hp
      simp only [OpRes.err.injEq] at h; rw [← h]; exact parseStart_err hp
    · unfold P2pk.startTx at h
      split at h
      · simp only [OpRes.err.injEq] at h; rw [← h]; decide
      · split at h
        · simp only [OpRes.err.injEq] at h; rw [← h]; exact FullErr.sw_ends _
        · simp at h
        · simp at h
  split at h
  · unfold P2pk.addTokens at h
    split at h
    · simp only [OpRes.err.injEq] at h; rw [← h]; decide
    · exact withTx_err h
  split at h
  · unfold opFrame at h
    simp only at h
    split at h
    · simp only [OpRes.err.injEq] at h; rw [← h]; decide
    split at h
    · simp only [OpRes.err.injEq] at h; rw [← h]; decide
    split at h
    · simp only [OpRes.err.injEq] at h; rw [← h]; decide
    split at h
    · exact addInputTokens_err h
    · split at h
      · exact addInputTokens_err h
      · unfold P2pk.addInput at h
        split at h
        · simp only [OpRes.err.injEq] at h; rw [← h]; decide
        · split at h
          · split at h
            · simp only [OpRes.err.injEq] at h; rw [← h]; decide
            · simp at h
          · exact withTx_err h
  split at h
  · unfold P2pk.addExtension at h
    split at h
    · simp only [OpRes.err.injEq] at h; rw [← h]; decide
    · exact withTx_err h
  split at h
  · unfold P2pk.addDataInputs at h
    split at h
    · simp only [OpRes.err.injEq] at h; rw [← h]; decide
    · exact withTx_err h
  split at h
  · unfold opOutput at h
    split at h
    · rename_i hp
      simp only [OpRes.err.injEq] at h; rw [← h]; exact parseOutput_err hp
    · unfold P2pk.addOutput at h
      split at h
      · simp only [OpRes.err.injEq] at h; rw [← h]; decide
      · split at h
        · split at h
          · simp at h
          · simp at h
        · exact withTx_err h
  split at h
  · exact withOut_err h
  split at h
  · unfold opFee at h
    split at h
    · simp only [OpRes.err.injEq] at h; rw [← h]; decide
    · exact withOut_err h
  split at h
  · unfold opChange at h
    split at h
    · simp only [OpRes.err.injEq] at h; rw [← h]; decide
    split at h
    · simp only [OpRes.err.injEq] at h; rw [← h]; decide
    split at h
    · simp only [OpRes.err.injEq] at h; rw [← h]; decide
    · exact withOut_err h
  split at h
  · exact withOut_err h
  · exact withOut_err h

theorem attestPart_err {env : Env} {x : AttestCtx} {r : BoxSt (List (Bytes × UInt64)) × Res BoxErr}
    {e : UInt16} (h : x.part env r = .err e) : Ends e := by
  unfold AttestCtx.part at h
  split at h
  · simp only [AttestRes.err.injEq] at h; rw [← h]; decide
  split at h
  · unfold AttestCtx.checkFinished at h
    split at h
    · simp at h
    · split at h
      · simp only [AttestRes.err.injEq] at h; rw [← h]; exact BoxErr.sw_ends _
      · simp at h
  · simp at h
  · simp only [AttestRes.err.injEq] at h; rw [← h]; exact BoxErr.sw_ends _
  · simp at h

theorem attestOp_err {env : Env} {key : Bytes} {x : AttestCtx} {sub : UInt8} {data : Bytes}
    {e : UInt16} (h : attestOp env key x sub data = .err e) : Ends e := by
  unfold attestOp at h
  split at h
  · exact attestPart_err h
  split at h
  · exact attestPart_err h
  split at h
  · exact attestPart_err h
  unfold AttestCtx.getFrame at h
  simp only at h
  repeat' split at h
  all_goals simp only [AttestRes.err.injEq, reduceCtorEq] at h
  all_goals (rw [← h]; decide)

theorem sendResponse_err {env : Env} {p : P2pk} {e : UInt16} (h : p.sendResponse env = .error e) :
    Ends e := by
  unfold P2pk.sendResponse at h
  repeat' split at h
  all_goals simp only [Except.error.injEq, reduceCtorEq] at h
  all_goals (rw [← h]; decide)

theorem show_err {env : Env} {nanoS : Bool} {d : Device} {cb : Callback} {k : Nat} {e : UInt16}
    (h : d.show env nanoS cb k = .err e) : Ends e := by
  unfold Device.show at h
  split at h
  · split at h
    · split at h
      · unfold showOutput printAddress at h
        repeat' split at h
        all_goals simp only [ShowRes.err.injEq, reduceCtorEq] at h
        all_goals (rw [← h]; decide)
      · simp at h
    · simp at h
  · split at h
    · unfold showTx at h
      simp only at h
      repeat' split at h
      all_goals simp only [ShowRes.err.injEq, reduceCtorEq] at h
      all_goals (rw [← h]; decide)
    · simp at h
  · simp at h

theorem abort_setCommand (d : Device) (c : Command) (sw : UInt16) :
    (d.setCommand c).abort sw = (d.setCommand .none, status sw) := rfl


theorem Trans.abort' {env : Env} {nanoS : Bool} {d : Device} {ins p1 p2 : UInt8} {data : Bytes}
    {rnd : Rnd} {sw : UInt16} (hb : d.busy = false) (h : Ends sw)
    (hi : ins = 0x10 ∨ ins = 0x11 ∨ ins = 0x20 ∨ ins = 0x21) :
    Trans env nanoS d (.apdu 0xE0 ins p1 p2 data rnd) (d.setCommand .none) (status sw) :=
  .abort hb h.1 hi (.inl h)

variable {env : Env} {nanoS : Bool} {d d' : Device} {r : Reply}

theorem sub_range {sub : UInt8} (h : 0x10 ≤ sub ∧ sub ≤ 0x1A) (h0 : ¬ sub = 0x10)
    (h1 : ¬ sub = 0x11) (h2 : ¬ sub = 0x12) (h3 : ¬ sub = 0x13) (h4 : ¬ sub = 0x14)
    (h5 : ¬ sub = 0x15) (h6 : ¬ sub = 0x16) (h7 : ¬ sub = 0x17) (h8 : ¬ sub = 0x18)
    (h9 : ¬ sub = 0x19) (hA : ¬ sub = 0x1A) : False := by
  have e0 : (0x10 : UInt8).toNat = 16 := rfl
  have e1 : (0x11 : UInt8).toNat = 17 := rfl
  have e2 : (0x12 : UInt8).toNat = 18 := rfl
  have e3 : (0x13 : UInt8).toNat = 19 := rfl
  have e4 : (0x14 : UInt8).toNat = 20 := rfl
  have e5 : (0x15 : UInt8).toNat = 21 := rfl
  have e6 : (0x16 : UInt8).toNat = 22 := rfl
  have e7 : (0x17 : UInt8).toNat = 23 := rfl
  have e8 : (0x18 : UInt8).toNat = 24 := rfl
  have e9 : (0x19 : UInt8).toNat = 25 := rfl
  have eA : (0x1A : UInt8).toNat = 26 := rfl
  obtain ⟨g1, g2⟩ := h
  rw [UInt8.le_iff_toNat_le] at g1 g2
  rw [← UInt8.toNat_inj] at h0 h1 h2 h3 h4 h5 h6 h7 h8 h9 hA
  omega

theorem extPubKey_trans {p1 p2 : UInt8} {data : Bytes} {rnd : Rnd} (h1 : p1 = 1 ∨ p1 = 2)
    (h : d.extPubKey env data (p1 = 2) = (d', r)) :
    Trans env nanoS d (.apdu 0xE0 0x10 p1 p2 data rnd) d' r := by
  unfold Device.extPubKey at h
  split at h
  · simp only [Prod.mk.injEq] at h
    obtain ⟨rfl, rfl⟩ := h
    exact .neutral (.inl ⟨rfl, by assumption⟩)
  rename_i hb
  simp only [Bool.not_eq_true] at hb
  simp only [abort_setCommand] at h
  split at h
  · rename_i e hp
    simp only [Prod.mk.injEq] at h
    obtain ⟨rfl, rfl⟩ := h
    exact Trans.abort' hb (parsePathToken_err hp) (by simp)
  rename_i path token hp
  split at h
  · simp only [Prod.mk.injEq] at h
    obtain ⟨rfl, rfl⟩ := h
    exact Trans.abort' hb (by decide) (by simp)
  rename_i hv
  simp only [Bool.not_eq_true, Bool.not_eq_false] at hv
  split at h
  · simp only [Prod.mk.injEq] at h
    obtain ⟨rfl, rfl⟩ := h
    exact Trans.abort' hb (by decide) (by simp)
  rename_i pub chain hg
  split at h
  · rename_i hk
    simp only [Prod.mk.injEq] at h
    obtain ⟨rfl, rfl⟩ := h
    exact .epkSend hb h1 hp hv hg hk
  rename_i hk
  split at h
  · simp only [Prod.mk.injEq] at h
    obtain ⟨rfl, rfl⟩ := h
    exact Trans.abort' hb (by decide) (by simp)
  rename_i t hf
  simp only [Prod.mk.injEq] at h
  obtain ⟨rfl, rfl⟩ := h
  exact .epkAsk hb h1 hp hv hg (Bool.eq_false_iff.2 hk) hf

theorem deriveAddress_trans {p1 p2 : UInt8} {data : Bytes} {rnd : Rnd} (h1 : p1 = 1 ∨ p1 = 2)
    (h2 : p2 = 1 ∨ p2 = 2)
    (h : d.deriveAddress env data (p1 = 2) (p2 = 2) = (d', r)) :
    Trans env nanoS d (.apdu 0xE0 0x11 p1 p2 data rnd) d' r := by
  unfold Device.deriveAddress at h
  split at h
  · simp only [Prod.mk.injEq] at h
    obtain ⟨rfl, rfl⟩ := h
    exact .neutral (.inl ⟨rfl, by assumption⟩)
  rename_i hb
  simp only [Bool.not_eq_true] at hb
  simp only [abort_setCommand] at h
  split at h
  · simp only [Prod.mk.injEq] at h
    obtain ⟨rfl, rfl⟩ := h
    exact Trans.abort' hb (by decide) (by simp)
  rename_i network rest hd
  have hd' : data = network :: rest := by
    unfold bufU8 at hd
    cases data with
    | nil => simp at hd
    | cons a l => simp at hd; rw [hd.1, hd.2]
  split at h
  · rename_i e hp
    simp only [Prod.mk.injEq] at h
    obtain ⟨rfl, rfl⟩ := h
    exact Trans.abort' hb (parsePathToken_err hp) (by simp)
  rename_i path token hp
  split at h
  · simp only [Prod.mk.injEq] at h
    obtain ⟨rfl, rfl⟩ := h
    exact Trans.abort' hb (by decide) (by simp)
  rename_i hv
  simp only [Bool.not_eq_true, Bool.not_eq_false] at hv
  split at h
  · simp only [Prod.mk.injEq] at h
    obtain ⟨rfl, rfl⟩ := h
    exact Trans.abort' hb (by decide) (by simp)
  rename_i pub chain hg
  split at h
  · simp only [Prod.mk.injEq] at h
    obtain ⟨rfl, rfl⟩ := h
    exact .deriveFail hb
  rename_i raw ha
  split at h
  · rename_i hk
    simp only [Prod.mk.injEq] at h
    obtain ⟨rfl, rfl⟩ := h
    have hp1 : p1 = 1 := by
      rcases h1 with h1 | h1
      · exact h1
      · simp [h1] at hk
    exact .daSend hb hp1 h2 hd' hp hv hg ha hk.2
  rename_i hk
  unfold Device.showAddress at h
  rw [if_neg (by simp [hv])] at h
  simp only [abort_setCommand] at h
  split at h
  · simp only [Prod.mk.injEq] at h
    obtain ⟨rfl, rfl⟩ := h
    exact Trans.abort' hb (by decide) (by simp)
  rename_i t hf
  split at h
  · rename_i hs
    have hp1 : p1 = 1 := by
      rcases h1 with h1 | h1
      · exact h1
      · simp [h1] at hs
    simp only [Prod.mk.injEq] at h
    obtain ⟨rfl, rfl⟩ := h
    subst hp1
    have hk' : isKnown token d.connectedApp = false := by
      have : ¬ isKnown token d.connectedApp = true := fun e => hk ⟨by decide, e⟩
      simpa using this
    exact .daAskSend hb rfl h2 hd' hp hv hg ha hk' hf
  · rename_i hs
    have hp1 : p1 = 2 := by
      rcases h1 with h1 | h1
      · simp [h1] at hs
      · exact h1
    subst hp1
    split at h
    · simp only [Device.abort, Prod.mk.injEq] at h
      obtain ⟨rfl, rfl⟩ := h
      exact Trans.abort' hb (by decide) (by simp)
    rename_i a hs58
    split at h
    · simp only [Device.abort, Prod.mk.injEq] at h
      obtain ⟨rfl, rfl⟩ := h
      exact Trans.abort' hb (by decide) (by simp)
    · rename_i hl
      simp only [Prod.mk.injEq] at h
      obtain ⟨rfl, rfl⟩ := h
      exact .daAskShow hb rfl h2 hd' hp hv hg ha hf hs58 (Nat.lt_of_not_le hl)

theorem attestInput_trans {sub p2 : UInt8} {data : Bytes} {rnd : Rnd} (hl : data.length ≤ 255)
    (hp0 : p2 ≠ 0)
    (h : d.attestInput env sub p2 data rnd = (d', r)) :
    Trans env nanoS d (.apdu 0xE0 0x20 sub p2 data rnd) d' r := by
  unfold Device.attestInput at h
  split at h
  · simp only [Prod.mk.injEq] at h
    obtain ⟨rfl, rfl⟩ := h
    exact .neutral (.inl ⟨rfl, by assumption⟩)
  rename_i hb
  simp only [Bool.not_eq_true] at hb
  split at h
  · rename_i hsub
    subst hsub
    split at h
    · simp only [Device.abort, Prod.mk.injEq] at h
      obtain ⟨rfl, rfl⟩ := h
      exact .abort hb (by decide) (by simp) (.inr ⟨rfl, rfl, rfl, hp0⟩)
    rename_i hp2
    have h2 : p2 = 1 ∨ p2 = 2 := by
      by_cases e : p2 = 1
      · exact .inl e
      · by_cases e' : p2 = 2
        · exact .inr e'
        · exact absurd ⟨e, e'⟩ hp2
    unfold Device.attestStart at h
    simp only [abort_setCommand] at h
    split at h
    · rename_i e hi
      simp only [Prod.mk.injEq] at h
      obtain ⟨rfl, rfl⟩ := h
      exact Trans.abort' hb (attestInit_err hi) (by simp)
    rename_i x hi
    split at h
    · simp only [Prod.mk.injEq] at h
      obtain ⟨rfl, rfl⟩ := h
      exact .attestHang hb
    rename_i s hs
    split at h
    · rename_i hk
      simp only [Prod.mk.injEq] at h
      obtain ⟨rfl, rfl⟩ := h
      exact .attestKnown hb h2 hi hs hk
    · rename_i hk
      simp only [Prod.mk.injEq] at h
      obtain ⟨rfl, rfl⟩ := h
      exact .attestAsk hb h2 hi hs (Bool.eq_false_iff.2 hk)
  split at h
  · rename_i hsub
    unfold Device.attestSub at h
    split at h
    · simp only [Device.abort, Prod.mk.injEq] at h
      obtain ⟨rfl, rfl⟩ := h
      exact Trans.abort' hb (by decide) (by simp)
    rename_i hc
    simp only [ne_eq, Decidable.not_not] at hc
    split at h
    · rename_i x hx
      split at h
      · simp only [Device.abort, Prod.mk.injEq] at h
        obtain ⟨rfl, rfl⟩ := h
        exact Trans.abort' hb (by decide) (by simp)
      rename_i hs
      simp only [ne_eq, Decidable.not_not] at hs
      have h' : d.attestResult (attestOp env d.sessionKey x sub data) = (d', r) := by
        unfold attestOp
        rw [← h]
        split
        · rfl
        split
        · rfl
        split <;> rfl
      generalize ho : attestOp env d.sessionKey x sub data = q at h'
      cases q with
      | ok x' out =>
        simp only [Device.attestResult, Prod.mk.injEq] at h'
        obtain ⟨rfl, rfl⟩ := h'
        exact .attestOk hb hl hsub hc hx hs ho
      | err e =>
        simp only [Device.attestResult, Device.abort, Prod.mk.injEq] at h'
        obtain ⟨rfl, rfl⟩ := h'
        exact Trans.abort' hb (attestOp_err ho) (by simp)
      | ub =>
        simp only [Device.attestResult, Prod.mk.injEq] at h'
        obtain ⟨rfl, rfl⟩ := h'
        exact .attestUb hb hl hc (.inr ⟨x, hx, ho⟩)
    · rename_i hx
      simp only [Prod.mk.injEq] at h
      obtain ⟨rfl, rfl⟩ := h
      exact .attestUb hb hl hc (.inl hx)
  · simp only [Device.abort, Prod.mk.injEq] at h
    obtain ⟨rfl, rfl⟩ := h
    exact Trans.abort' hb (by decide) (by simp)

theorem signTransaction_trans {sub p2 : UInt8} {data : Bytes} {rnd : Rnd} (hl : data.length ≤ 255)
    (h : d.signTransaction env sub p2 data rnd = (d', r)) :
    Trans env nanoS d (.apdu 0xE0 0x21 sub p2 data rnd) d' r := by
  unfold Device.signTransaction at h
  split at h
  · simp only [Prod.mk.injEq] at h
    obtain ⟨rfl, rfl⟩ := h
    exact .neutral (.inl ⟨rfl, by assumption⟩)
  rename_i hb
  simp only [Bool.not_eq_true] at hb
  split at h
  · rename_i hsub
    subst hsub
    split at h
    · simp only [Prod.mk.injEq] at h
      obtain ⟨rfl, rfl⟩ := h
      exact .neutral (.inr (.inl rfl))
    rename_i hp2
    have h2 : p2 = 1 ∨ p2 = 2 := by
      by_cases e : p2 = 1
      · exact .inl e
      · by_cases e' : p2 = 2
        · exact .inr e'
        · exact absurd ⟨e, e'⟩ hp2
    unfold Device.signStart at h
    simp only [abort_setCommand] at h
    split at h
    · rename_i e hp
      simp only [Prod.mk.injEq] at h
      obtain ⟨rfl, rfl⟩ := h
      exact Trans.abort' hb (parseSignInit_err hp) (by simp)
    rename_i network path token hp
    split at h
    · rename_i e hi
      simp only [Prod.mk.injEq] at h
      obtain ⟨rfl, rfl⟩ := h
      exact Trans.abort' hb (p2pkInit_err hi) (by simp)
    · rename_i hi
      simp only [Prod.mk.injEq] at h
      obtain ⟨rfl, rfl⟩ := h
      exact .signInitUb hb hi
    rename_i p hi
    split at h
    · simp only [Prod.mk.injEq] at h
      obtain ⟨rfl, rfl⟩ := h
      exact .signHang hb
    rename_i s hs
    split at h
    · simp only [Prod.mk.injEq] at h
      obtain ⟨rfl, rfl⟩ := h
      exact Trans.abort' hb (by decide) (by simp)
    rename_i t hf
    simp only [Prod.mk.injEq] at h
    obtain ⟨rfl, rfl⟩ := h
    exact .signAsk hb h2 hp hi hs hf
  split at h
  · rename_i hsub
    unfold Device.signSub at h
    by_cases hc : d.command ≠ .signTransaction
    · rw [if_pos hc] at h
      simp only [Device.abort, Prod.mk.injEq] at h
      obtain ⟨rfl, rfl⟩ := h
      exact Trans.abort' hb (by decide) (by simp)
    rw [if_neg hc] at h
    simp only [ne_eq, Decidable.not_not] at hc
    by_cases hx' : ∃ x, d.ctx = .sign x
    · obtain ⟨x, hx⟩ := hx'
      rw [hx] at h
      dsimp only at h
      by_cases hs : p2 ≠ x.session
      · rw [if_pos hs] at h
        simp only [Device.abort, Prod.mk.injEq] at h
        obtain ⟨rfl, rfl⟩ := h
        exact Trans.abort' hb (by decide) (by simp)
      rw [if_neg hs] at h
      simp only [ne_eq, Decidable.not_not] at hs
      by_cases hap : ¬ x.approved
      · rw [if_pos hap] at h
        simp only [Device.abort, Prod.mk.injEq] at h
        obtain ⟨rfl, rfl⟩ := h
        exact Trans.abort' hb (by decide) (by simp)
      rw [if_neg hap] at h
      simp only [Bool.not_eq_true, Bool.not_eq_false] at hap
      by_cases h20 : sub = 0x20
      · subst h20
        simp only [show ¬ ((0x20 : UInt8) = 0x10) by decide, show ¬ ((0x20 : UInt8) = 0x11) by decide,
          show ¬ ((0x20 : UInt8) = 0x12) by decide, show ¬ ((0x20 : UInt8) = 0x13) by decide,
          show ¬ ((0x20 : UInt8) = 0x14) by decide, show ¬ ((0x20 : UInt8) = 0x15) by decide,
          show ¬ ((0x20 : UInt8) = 0x16) by decide, show ¬ ((0x20 : UInt8) = 0x17) by decide,
          show ¬ ((0x20 : UInt8) = 0x18) by decide, show ¬ ((0x20 : UInt8) = 0x19) by decide,
          show ¬ ((0x20 : UInt8) = 0x1A) by decide, if_false] at h
        unfold Device.signConfirm at h
        split at h
        · simp only [Device.abort, Prod.mk.injEq] at h
          obtain ⟨rfl, rfl⟩ := h
          exact Trans.abort' hb (by decide) (by simp)
        rename_i hst
        simp only [ne_eq, Decidable.not_not] at hst
        simp only [Prod.mk.injEq] at h
        obtain ⟨rfl, rfl⟩ := h
        exact .signConfirm hb hl hc hx hs hap hst
      have hrange : 0x10 ≤ sub ∧ sub ≤ 0x1A := by
        rcases hsub with h' | h'
        · exact h'
        · exact absurd h' h20
      -- the two kinds of answers
      have h' : (if sub < 0x16 then d.signResult x (signOp env d.sessionKey x.p sub data)
          else d.signShow x (signOp env d.sessionKey x.p sub data)) = (d', r) := by
        rw [← h]
        unfold signOp
        by_cases e : sub = 0x10
        · subst e; rfl
        by_cases e : sub = 0x11
        · subst e; rfl
        by_cases e : sub = 0x12
        · subst e; rfl
        by_cases e : sub = 0x13
        · subst e; rfl
        by_cases e : sub = 0x14
        · subst e; rfl
        by_cases e : sub = 0x15
        · subst e; rfl
        by_cases e : sub = 0x16
        · subst e; rfl
        by_cases e : sub = 0x17
        · subst e; rfl
        by_cases e : sub = 0x18
        · subst e; rfl
        by_cases e : sub = 0x19
        · subst e; rfl
        by_cases e : sub = 0x1A
        · subst e; rfl
        exfalso
        exact sub_range hrange (by assumption) (by assumption) (by assumption) (by assumption)
          (by assumption) (by assumption) (by assumption) (by assumption) (by assumption)
          (by assumption) (by assumption)
      generalize ho : signOp env d.sessionKey x.p sub data = q at h'
      cases q with
      | ok p =>
        split at h'
        · rename_i hlt
          simp only [Device.signResult, Prod.mk.injEq] at h'
          obtain ⟨rfl, rfl⟩ := h'
          exact .signOk hb hl hrange hc hx hs hap ho (.inl hlt)
        · rename_i hge
          have hge' : 0x16 ≤ sub := by
            rw [UInt8.lt_iff_toNat_lt] at hge
            rw [UInt8.le_iff_toNat_le]; omega
          simp only [Device.signShow] at h'
          split at h'
          · rename_i hn
            simp only [Prod.mk.injEq] at h'
            obtain ⟨rfl, rfl⟩ := h'
            exact .signUb hb hl hc (.inr ⟨x, hx, hap, .inr ⟨p, ho, hge', hrange.2, .inl hn⟩⟩)
          · rename_i hn
            simp only [Prod.mk.injEq] at h'
            obtain ⟨rfl, rfl⟩ := h'
            exact .signOk hb hl hrange hc hx hs hap ho (.inr hn)
          · rename_i hn
            split at h'
            · rename_i t hu
              split at h'
              · rename_i o hout
                simp only [Prod.mk.injEq] at h'
                obtain ⟨rfl, rfl⟩ := h'
                exact .signShow hb hl ⟨hge', hrange.2⟩ hc hx hs hap ho hn hu hout
              · rename_i hout
                simp only [Prod.mk.injEq] at h'
                obtain ⟨rfl, rfl⟩ := h'
                refine .signUb hb hl hc (.inr ⟨x, hx, hap, .inr ⟨p, ho, hge', hrange.2, .inr ⟨hn, ?_⟩⟩⟩)
                intro t' ht'
                rw [hu] at ht'
                cases ht'
                exact hout
            · rename_i hu
              simp only [Prod.mk.injEq] at h'
              obtain ⟨rfl, rfl⟩ := h'
              refine .signUb hb hl hc (.inr ⟨x, hx, hap, .inr ⟨p, ho, hge', hrange.2, .inr ⟨hn, ?_⟩⟩⟩)
              intro t' ht'
              exact absurd ht' (hu t')
      | err e =>
        have h'' : (d.setCommand .none, status e) = (d', r) := by
          split at h' <;> exact h'
        simp only [Prod.mk.injEq] at h''
        obtain ⟨rfl, rfl⟩ := h''
        exact Trans.abort' hb (signOp_err ho) (by simp)
      | ub =>
        have h'' : (d, Reply.ub) = (d', r) := by
          split at h' <;> exact h'
        simp only [Prod.mk.injEq] at h''
        obtain ⟨rfl, rfl⟩ := h''
        exact .signUb hb hl hc (.inr ⟨x, hx, hap, .inl ho⟩)
    · have hx : ∀ x, d.ctx ≠ .sign x := fun x e => hx' ⟨x, e⟩
      have h' : (d, Reply.ub) = (d', r) := by
        rw [← h]
        cases hd : d.ctx with
        | sign x => exact absurd hd (hx x)
        | _ => rfl
      simp only [Prod.mk.injEq] at h'
      obtain ⟨rfl, rfl⟩ := h'
      exact .signUb hb hl hc (.inl hx)
  · simp only [Device.abort, Prod.mk.injEq] at h
    obtain ⟨rfl, rfl⟩ := h
    exact Trans.abort' hb (by decide) (by simp)

theorem dispatch_trans {cla ins p1 p2 : UInt8} {data : Bytes} {rnd : Rnd} (hl : data.length ≤ 255)
    (h : d.dispatch env cla ins p1 p2 data rnd = (d', r)) :
    Trans env nanoS d (.apdu cla ins p1 p2 data rnd) d' r := by
  have h12 : ∀ p : UInt8, ¬ (p = 0 ∨ p > 2) → p = 1 ∨ p = 2 := by
    intro p h
    simp only [gt_iff_lt, UInt8.lt_iff_toNat_lt, ← UInt8.toNat_inj] at h ⊢
    have e0 : (0 : UInt8).toNat = 0 := rfl
    have e1 : (1 : UInt8).toNat = 1 := rfl
    have e2 : (2 : UInt8).toNat = 2 := rfl
    omega
  unfold Device.dispatch at h
  split at h
  · simp only [Prod.mk.injEq] at h
    obtain ⟨rfl, rfl⟩ := h
    exact .neutral (.inr (.inr (.inl ⟨rfl, by assumption⟩)))
  rename_i hcla
  simp only [ne_eq, Decidable.not_not] at hcla
  subst hcla
  split at h
  · rename_i hi
    subst hi
    split at h <;> simp only [Prod.mk.injEq] at h <;> obtain ⟨rfl, rfl⟩ := h
    · exact .neutral (.inr (.inl rfl))
    · exact .version hl
  split at h
  · rename_i hi
    subst hi
    split at h <;> simp only [Prod.mk.injEq] at h <;> obtain ⟨rfl, rfl⟩ := h
    · exact .neutral (.inr (.inl rfl))
    · exact .name hl
  split at h
  · rename_i hi
    subst hi
    split at h
    · simp only [Prod.mk.injEq] at h
      obtain ⟨rfl, rfl⟩ := h
      exact .neutral (.inr (.inl rfl))
    · rename_i hp
      exact extPubKey_trans (h12 p1 (fun e => hp (by tauto))) h
  split at h
  · rename_i hi
    subst hi
    split at h
    · simp only [Prod.mk.injEq] at h
      obtain ⟨rfl, rfl⟩ := h
      exact .neutral (.inr (.inl rfl))
    · rename_i hp
      exact deriveAddress_trans (h12 p1 (fun e => hp (by tauto))) (h12 p2 (fun e => hp (by tauto))) h
  split at h
  · rename_i hi
    subst hi
    split at h
    · simp only [Prod.mk.injEq] at h
      obtain ⟨rfl, rfl⟩ := h
      exact .neutral (.inr (.inl rfl))
    · rename_i hp
      exact attestInput_trans hl (fun e => hp (by tauto)) h
  split at h
  · rename_i hi
    subst hi
    split at h
    · simp only [Prod.mk.injEq] at h
      obtain ⟨rfl, rfl⟩ := h
      exact .neutral (.inr (.inl rfl))
    · exact signTransaction_trans hl h
  · simp only [Prod.mk.injEq] at h
    obtain ⟨rfl, rfl⟩ := h
    exact .neutral (.inr (.inr (.inr (.inl ⟨rfl, by assumption, by assumption, by assumption,
      by assumption⟩))))

theorem move_trans {s : Screen} {e : Event} {m : Move} (hs : d.screen = some s)
    (he : e = .left ∧ m = s.flow.left ∨ e = .right ∧ m = s.flow.right)
    (h : d.move env nanoS s m = (d', r)) : Trans env nanoS d e d' r := by
  unfold Device.move at h
  simp only at h
  split at h
  · rename_i hm
    simp only [Prod.mk.injEq] at h
    obtain ⟨rfl, rfl⟩ := h
    exact .move he hs (by simp [hm])
  · rename_i k hm
    split at h
    · rename_i p hk
      simp only [Prod.mk.injEq] at h
      obtain ⟨rfl, rfl⟩ := h
      refine .move he hs ?_
      intro k' hk'
      rw [hm] at hk'
      cases hk'
      exact ⟨p, hk⟩
    · rename_i sw hk
      simp only [Prod.mk.injEq] at h
      obtain ⟨rfl, rfl⟩ := h
      exact .moveErr he hs hm hk
    · rename_i hk
      simp only [Prod.mk.injEq] at h
      obtain ⟨rfl, rfl⟩ := h
      exact .moveUb he hs hm hk

theorem act_ub_same {cb : Callback} {b : Bool} (h : (d.act env cb b).2 = .ub) :
    (d.act env cb b).1 = d := by
  unfold Device.act at h ⊢
  split at h
  · unfold Device.actExtPubKey at h ⊢; split at h <;> simp [status] at h
  · unfold Device.actDerive at h ⊢; split at h <;> simp [status] at h
  · unfold Device.actAttest at h ⊢; split at h <;> simp [status] at h
  · unfold Device.actSignInit at h ⊢
    split at h
    · split at h <;> simp [status] at h
    · rfl
  · unfold Device.actSignOutput at h ⊢
    split at h
    · rename_i t hu
      split at h
      · rfl
      · rename_i o hout
        split at h
        · rename_i hap
          split at h
          · rename_i hn
            rw [if_pos hap]
          · simp [status] at h
        · simp [status] at h
    · rfl
  · unfold Device.actSignTx at h ⊢
    split at h
    · split at h <;> simp [status] at h
    · simp [status] at h
  · rfl

theorem act_approve_trans {s : Screen} (hs : d.screen = some s)
    (h1 : s.flow.here = .approve ∨ ∃ p, s.flow.here = .pathApprove p)
    (h : d.act env s.cb true = (d', r)) : Trans env nanoS d .both d' r := by
  by_cases hub : r = .ub
  · subst hub
    have h2 : (d.act env s.cb true).2 = .ub := by rw [h]
    have := act_ub_same h2
    rw [h] at this
    simp only at this
    rw [this]
    refine .actUb hs ?_ h2
    rcases h1 with h1 | h1
    · exact .inl h1
    · exact .inr (.inr h1)
  unfold Device.act at h
  split at h
  · rename_i x hcb hx
    simp only [Device.actExtPubKey, if_true, Prod.mk.injEq] at h
    obtain ⟨rfl, rfl⟩ := h
    exact .okEpk hs h1 (by assumption) (by assumption)
  · rename_i x hcb hx
    simp only [Device.actDerive, if_true, Prod.mk.injEq] at h
    obtain ⟨rfl, rfl⟩ := h
    exact .okDa hs h1 (by assumption) (by assumption)
  · rename_i x hcb hx
    simp only [Device.actAttest, if_true, Prod.mk.injEq] at h
    obtain ⟨rfl, rfl⟩ := h
    exact .okAttest hs h1 (by assumption) (by assumption)
  · rename_i x hcb hx
    simp only [Device.actSignInit, if_true] at h
    split at h
    · rename_i token hu
      simp only [Prod.mk.injEq] at h
      obtain ⟨rfl, rfl⟩ := h
      exact .okSignInit hs h1 (by assumption) (by assumption) hu
    · simp only [Prod.mk.injEq] at h
      exact absurd h.2.symm hub
  · rename_i x hcb hx
    simp only [Device.actSignOutput, if_true] at h
    split at h
    · rename_i t hu
      split at h
      · simp only [Prod.mk.injEq] at h
        exact absurd h.2.symm hub
      · rename_i o hout
        split at h
        · simp only [Prod.mk.injEq] at h
          exact absurd h.2.symm hub
        · rename_i last hlast
          simp only [Prod.mk.injEq] at h
          obtain ⟨rfl, rfl⟩ := h
          refine .okSignOutput hs h1 (by assumption) (by assumption) hu hout ?_
          split at hlast
          · rename_i hty
            refine .inl ⟨hty, ?_⟩
            split at hlast
            · rename_i p hp
              simp only [Option.some.injEq] at hlast
              rw [hp, hlast]
            · simp at hlast
          · rename_i hty
            simp only [Option.some.injEq] at hlast
            exact .inr ⟨hty, hlast.symm⟩
    · simp only [Prod.mk.injEq] at h
      exact absurd h.2.symm hub
  · rename_i x hcb hx
    simp only [Device.actSignTx, if_true] at h
    split at h
    · rename_i sig hsig
      simp only [Prod.mk.injEq] at h
      obtain ⟨rfl, rfl⟩ := h
      exact .okSignTx hs h1 (by assumption) (by assumption) hsig
    · rename_i sw hsig
      simp only [Prod.mk.injEq] at h
      obtain ⟨rfl, rfl⟩ := h
      exact .failSignTx hs h1 (by assumption) (by assumption) hsig
  · simp only [Prod.mk.injEq] at h
    exact absurd h.2.symm hub

theorem act_reject_trans {s : Screen} (hs : d.screen = some s) (h1 : s.flow.here = .reject)
    (h : d.act env s.cb false = (d', r)) : Trans env nanoS d .both d' r := by
  by_cases hub : r = .ub
  · subst hub
    have h2 : (d.act env s.cb false).2 = .ub := by rw [h]
    have := act_ub_same h2
    rw [h] at this
    simp only at this
    rw [this]
    exact .actUb hs (.inr (.inl h1)) h2
  have key : d' = (d.setCommand .none).menu ∧ r = status Sw.deny := by
    unfold Device.act at h
    split at h
    · simp only [Device.actExtPubKey, Bool.false_eq_true, if_false, Prod.mk.injEq] at h; exact ⟨h.1.symm, h.2.symm⟩
    · simp only [Device.actDerive, Bool.false_eq_true, if_false, Prod.mk.injEq] at h; exact ⟨h.1.symm, h.2.symm⟩
    · simp only [Device.actAttest, Bool.false_eq_true, if_false, Prod.mk.injEq] at h; exact ⟨h.1.symm, h.2.symm⟩
    · simp only [Device.actSignInit] at h
      split at h
      · simp only [Bool.false_eq_true, if_false, Prod.mk.injEq] at h; exact ⟨h.1.symm, h.2.symm⟩
      · simp only [Prod.mk.injEq] at h
        exact absurd h.2.symm hub
    · simp only [Device.actSignOutput] at h
      split at h
      · split at h
        · simp only [Prod.mk.injEq] at h
          exact absurd h.2.symm hub
        · simp only [Bool.false_eq_true, if_false, Prod.mk.injEq] at h; exact ⟨h.1.symm, h.2.symm⟩
      · simp only [Prod.mk.injEq] at h
        exact absurd h.2.symm hub
    · simp only [Device.actSignTx, Bool.false_eq_true, if_false, Prod.mk.injEq] at h; exact ⟨h.1.symm, h.2.symm⟩
    · simp only [Prod.mk.injEq] at h
      exact absurd h.2.symm hub
  obtain ⟨rfl, rfl⟩ := key
  exact .reject hs h1

/-- Every step is one of the transitions. -/
theorem step_trans {e : Event} (h : d.step env nanoS e = (d', r)) : Trans env nanoS d e d' r := by
  unfold Device.step at h
  cases e with
  | apdu cla ins p1 p2 data rnd =>
    simp only at h
    split at h
    · simp only [Prod.mk.injEq] at h
      obtain ⟨rfl, rfl⟩ := h
      exact .neutral (.inr (.inr (.inr (.inr ⟨rfl, by assumption⟩))))
    · rename_i hl
      exact dispatch_trans (Nat.le_of_not_lt hl) h
  | left =>
    simp only at h
    split at h
    · rename_i hs
      simp only [Prod.mk.injEq] at h
      obtain ⟨rfl, rfl⟩ := h
      exact .idle (.inl rfl) hs
    · rename_i s hs
      exact move_trans hs (.inl ⟨rfl, rfl⟩) h
  | right =>
    simp only at h
    split at h
    · rename_i hs
      simp only [Prod.mk.injEq] at h
      obtain ⟨rfl, rfl⟩ := h
      exact .idle (.inr (.inl rfl)) hs
    · rename_i s hs
      exact move_trans hs (.inr ⟨rfl, rfl⟩) h
  | both =>
    simp only at h
    split at h
    · rename_i hs
      simp only [Prod.mk.injEq] at h
      obtain ⟨rfl, rfl⟩ := h
      exact .idle (.inr (.inr rfl)) hs
    · rename_i s hs
      unfold Device.both at h
      split at h
      · rename_i hh; exact act_approve_trans hs (.inl hh) h
      · rename_i hh; exact act_reject_trans hs hh h
      · rename_i p hh; exact act_approve_trans hs (.inr ⟨p, hh⟩) h
      · rename_i h1 h2 h3
        simp only [Prod.mk.injEq] at h
        obtain ⟨rfl, rfl⟩ := h
        exact .click hs h1 h2 h3

/-- Every step is one of the transitions. -/
theorem step_cases (env : Env) (nanoS : Bool) (d : Device) (e : Event) :
    ∃ d' r, d.step env nanoS e = (d', r) ∧ Trans env nanoS d e d' r :=
  ⟨_, _, rfl, step_trans rfl⟩

end Ergo
