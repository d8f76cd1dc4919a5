import Verif.Proof.Start
import Verif.Proof.Why
import Verif.Spec.WhyAll
/-!
# The status word of a refused command: the start commands
-/
namespace Ergo
open Spec

theorem Spec.Answers.cons {P : Prop} {c : UInt16} {l : List Demand} {r : Reply} {rnd : Rnd} (hc : c ≠ 0x9000)
    (h1 : ¬ P → r = .sw c []) (h2 : P → Answers rnd l r) : Answers rnd ((P, c) :: l) r := by
  by_cases hP : P
  · rcases h2 hP with ⟨h3, h4⟩ | ⟨c', h3, h4⟩
    · exact .inl ⟨allMet_cons.2 ⟨hP, h3⟩, h4⟩
    · exact .inr ⟨c', .later hP h3, h4⟩
  · exact .inr ⟨c, .here hP, hc, h1 hP⟩

theorem Spec.Answers.nil {r : Reply} {rnd : Rnd}
    (h : (∃ out, r = .sw 0x9000 out) ∨ r = .wait ∨ r = .hang ∧ ∀ i ∈ rnd.u8s, i = 0) : Answers rnd [] r := .inl ⟨allMet_nil, h⟩

theorem noId {l : List UInt8} (h : newSession 0 l = none) : ∀ i ∈ l, i = 0 := by
  intro i hi
  by_contra hn
  obtain ⟨s, hs⟩ := (newSession_iff l).2 ⟨i, hi, hn⟩
  rw [h] at hs
  cases hs

/-! ## Reading the data -/

theorem parsePath_short {d : Bytes} {b : Bool}
    (h : ¬ (1 ≤ field d 0 1 ∧ field d 0 1 ≤ 10 ∧ pathLen d + (if b then 4 else 0) ≤ d.length)) :
    parsePathToken d b = .error Sw.notEnoughData := by
  rw [parsePathToken_eq]
  rcases readPath_cases d with ⟨h0, h1⟩ | ⟨h0, p, h1⟩
  · simp only [h1]
  · simp only [h1]
    rcases token_cases b (d.drop (pathLen d)) with ⟨h3, h2⟩ | ⟨h3, v, h2⟩
    · simp only [h2]
    · simp only [List.length_drop] at h3
      exact absurd ⟨h0.2.1, h0.2.2, by omega⟩ h

theorem parsePath_long {d : Bytes} {b : Bool}
    (h1 : 1 ≤ field d 0 1 ∧ field d 0 1 ≤ 10 ∧ pathLen d + (if b then 4 else 0) ≤ d.length)
    (h2 : ¬ d.length ≤ pathLen d + (if b then 4 else 0)) :
    parsePathToken d b = .error Sw.tooMuchData := by
  rw [parsePathToken_eq]
  rcases readPath_cases d with ⟨h0, h3⟩ | ⟨h0, p, h3⟩
  · omega
  · simp only [h3]
    rcases token_cases b (d.drop (pathLen d)) with ⟨h4, h5⟩ | ⟨h4, v, h5⟩
    · simp only [List.length_drop] at h4; omega
    · simp only [h5]
      rw [if_pos]
      intro hn
      have := congrArg List.length hn
      simp only [List.length_drop, List.length_nil] at this
      omega

theorem parseSign_err {d : Bytes} {b : Bool} :
    (¬ 1 ≤ d.length → parseSignInit d b = .error Sw.notEnoughData) ∧
    (1 ≤ d.length → ¬ (1 ≤ field d 1 1 ∧ field d 1 1 ≤ 10 ∧ 1 + pathLen (d.drop 1) ≤ d.length) →
      parseSignInit d b = .error Sw.bufferError) ∧
    (1 ≤ d.length → (1 ≤ field d 1 1 ∧ field d 1 1 ≤ 10 ∧ 1 + pathLen (d.drop 1) ≤ d.length) →
      ¬ 1 + pathLen (d.drop 1) + (if b then 4 else 0) ≤ d.length →
      parseSignInit d b = .error Sw.notEnoughData) ∧
    (1 ≤ d.length → (1 ≤ field d 1 1 ∧ field d 1 1 ≤ 10 ∧ 1 + pathLen (d.drop 1) ≤ d.length) →
      1 + pathLen (d.drop 1) + (if b then 4 else 0) ≤ d.length →
      ¬ d.length ≤ 1 + pathLen (d.drop 1) + (if b then 4 else 0) →
      parseSignInit d b = .error Sw.tooMuchData) := by
  cases d with
  | nil => exact ⟨fun _ => rfl, fun h => by simp at h, fun h => by simp at h, fun h => by simp at h⟩
  | cons n d =>
    have hf : field (n :: d) 1 1 = field d 0 1 := by simp [field]
    rw [hf]
    simp only [List.drop_succ_cons, List.drop_zero, List.length_cons]
    refine ⟨fun h => by omega, fun _ h => ?_, fun _ h1 h2 => ?_, fun _ h1 h2 h3 => ?_⟩
    · unfold parseSignInit
      simp only [bufU8]
      rcases readPath_cases d with ⟨h0, g⟩ | ⟨h0, p, g⟩
      · simp only [g]
      · omega
    · unfold parseSignInit
      simp only [bufU8]
      rcases readPath_cases d with ⟨h0, g⟩ | ⟨h0, p, g⟩
      · omega
      · simp only [g]
        rcases token_cases b (d.drop (pathLen d)) with ⟨h4, h5⟩ | ⟨h4, v, h5⟩
        · simp only [h5]
        · simp only [List.length_drop] at h4; omega
    · unfold parseSignInit
      simp only [bufU8]
      rcases readPath_cases d with ⟨h0, g⟩ | ⟨h0, p, g⟩
      · omega
      · simp only [g]
        rcases token_cases b (d.drop (pathLen d)) with ⟨h4, h5⟩ | ⟨h4, v, h5⟩
        · simp only [List.length_drop] at h4; omega
        · simp only [h5]
          rw [if_pos]
          intro hn
          have := congrArg List.length hn
          simp only [List.length_drop, List.length_nil] at this
          omega

theorem attestParse_error {d : Bytes} {b : Bool} :
    (¬ 55 + (if b then 4 else 0) ≤ d.length → attestParse d b = .error Sw.notEnoughData) ∧
    (55 + (if b then 4 else 0) ≤ d.length → ¬ d.length ≤ 55 + (if b then 4 else 0) →
      attestParse d b = .error Sw.tooMuchData) := by
  unfold attestParse
  rcases bufBytes_cases idLen d with ⟨g1, h1⟩ | ⟨g1, v1, h1⟩
  · simp only [h1]
    exact ⟨fun _ => trivial, fun h => by simp only [idLen] at *; omega⟩
  simp only [h1]
  rcases bufU16_cases (d.drop idLen) with ⟨g2, h2⟩ | ⟨g2, v2, h2⟩
  · simp only [h2]
    exact ⟨fun _ => trivial, fun h => by simp only [List.length_drop, idLen] at *; omega⟩
  simp only [h2]
  rcases bufU64_cases ((d.drop idLen).drop 2) with ⟨g3, h3⟩ | ⟨g3, v3, h3⟩
  · simp only [h3]
    exact ⟨fun _ => trivial, fun h => by simp only [List.length_drop, idLen] at *; omega⟩
  simp only [h3]
  rcases bufU32_cases (((d.drop idLen).drop 2).drop 8) with ⟨g4, h4⟩ | ⟨g4, v4, h4⟩
  · simp only [h4]
    exact ⟨fun _ => trivial, fun h => by simp only [List.length_drop, idLen] at *; omega⟩
  simp only [h4]
  rcases bufU32_cases ((((d.drop idLen).drop 2).drop 8).drop 4) with ⟨g5, h5⟩ | ⟨g5, v5, h5⟩
  · simp only [h5]
    exact ⟨fun _ => trivial, fun h => by simp only [List.length_drop, idLen] at *; omega⟩
  simp only [h5]
  rcases bufU8_cases (((((d.drop idLen).drop 2).drop 8).drop 4).drop 4) with ⟨g6, h6⟩ | ⟨g6, v6, h6⟩
  · simp only [h6]
    exact ⟨fun _ => trivial, fun h => by simp only [List.length_drop, idLen] at *; omega⟩
  simp only [h6]
  rcases bufU32_cases ((((((d.drop idLen).drop 2).drop 8).drop 4).drop 4).drop 1) with
    ⟨g7, h7⟩ | ⟨g7, v7, h7⟩
  · simp only [h7]
    exact ⟨fun _ => trivial, fun h => by simp only [List.length_drop, idLen] at *; omega⟩
  simp only [h7]
  rcases token_cases b (((((((d.drop idLen).drop 2).drop 8).drop 4).drop 4).drop 1).drop 4) with
    ⟨g8, h8⟩ | ⟨g8, v8, h8⟩
  · simp only [h8]
    exact ⟨fun _ => trivial, fun h => by simp only [List.length_drop, idLen] at *; omega⟩
  simp only [h8]
  refine ⟨fun h => ?_, fun h hh => ?_⟩
  · simp only [List.length_drop, idLen] at *; omega
  · rw [if_pos]
    intro hn
    have := congrArg List.length hn
    simp only [List.length_drop, List.length_nil, idLen] at this h hh
    omega

/-! ## The four commands -/

theorem why_epk {env : Env} {d : Device} (hb : d.busy = false) (a : Request) (hi : a.ins = 0x10) :
    Answers a.rnd (startDemands env d.connectedApp a) (d.extPubKey env a.data (a.p1 = 2)).2 := by
  have hat : a.AtOnce d.connectedApp ↔ a.token ≠ 0 ∧ a.token = d.connectedApp := by
    unfold Request.AtOnce
    rw [hi]
    simp
  have hp : a.path = pathOf a.data := by unfold Request.path; rw [if_pos hi]
  unfold startDemands
  simp only [if_pos hi, hat, hp]
  unfold Device.extPubKey
  rw [hb]
  simp only [Bool.false_eq_true, if_false]
  refine .cons (by decide) (fun h => ?_) (fun h1 => .cons (by decide) (fun h => ?_) (fun h2 => ?_))
  · rw [parsePath_short (by simpa using h)]; rfl
  · rw [parsePath_long (by simpa using h1) (by simpa using h)]; rfl
  rcases parse_pathToken a.data (a.p1 = 2) with ⟨g1, g2, token, g3⟩ | ⟨g1, _⟩
  swap
  · refine absurd ⟨?_, h1.1, h1.2.1⟩ g1
    simp only [decide_eq_true_eq]
    omega
  have ht := token_of_epk hi g3
  subst ht
  simp only [g3]
  refine .cons (by decide) (fun h => ?_) (fun h3 => .cons (by decide) (fun h => ?_) (fun h4 => ?_))
  · rw [if_pos (mt (validate_account _).1 h)]; rfl
  · rw [if_neg (by simpa using (validate_account _).2 h3)]
    simp only [Option.not_isSome_iff_eq_none] at h
    rw [h]; rfl
  rw [if_neg (by simpa using (validate_account _).2 h3)]
  obtain ⟨q, hq⟩ := Option.isSome_iff_exists.1 h4
  simp only [hq]
  have hk := isKnown_saved a.token d.connectedApp
  rw [show (d.setCommand .extPubKey).connectedApp = d.connectedApp from rfl]
  by_cases hkn : isKnown a.token d.connectedApp = true
  · rw [if_pos hkn]
    exact .cons (by decide) (fun h => absurd (.inl (hk.1 hkn)) h) (fun _ => .nil (.inl ⟨_, rfl⟩))
  · rw [if_neg hkn]
    have hk2 := mt hk.2 hkn
    cases hf : pathFormat (pathOf a.data) bip32StrLen with
    | none =>
      refine .cons (by decide) (fun _ => rfl) (fun h => ?_)
      exact absurd (h.resolve_left hk2) (pathFormat_none (account_ne_nil h3) g2 hf)
    | some t =>
      exact .cons (by decide) (fun h => absurd (.inr (pathFormat_need hf)) h) (fun _ => .nil (.inr (.inl rfl)))

theorem showAddress_error {env : Env} (hwf : env.WF) {d : Device} {send : Bool} {token : UInt32}
    {path : List UInt32} {raw pub : Bytes} {n : UInt8} (hp : IsAddressPath path)
    (hl : path.length ≤ 10) (hr : addressFromPubkey env n pub = some raw) (hn : ¬ pathNeed path < 60) :
    (d.showAddress send token path raw).2 = .sw 0xE101 [] := by
  unfold Device.showAddress
  rw [if_neg (by simpa using (validate_address _).2 hp)]
  cases hf : pathFormat path bip32StrLen with
  | none => rfl
  | some t => exact absurd (pathFormat_need hf) hn

theorem why_address {env : Env} (hwf : env.WF) {d : Device} (hb : d.busy = false) (a : Request)
    (hi : a.ins = 0x11) (hp1 : a.p1 = 1 ∨ a.p1 = 2) :
    Answers a.rnd (startDemands env d.connectedApp a) (d.deriveAddress env a.data (a.p1 = 2) (a.p2 = 2)).2 := by
  have hf : field (a.data.drop 1) 0 1 = field a.data 1 1 := by simp [field]
  have hat : a.AtOnce d.connectedApp ↔ a.token ≠ 0 ∧ a.token = d.connectedApp ∧ a.p1 = 1 := by
    unfold Request.AtOnce
    rw [hi]
    simp
  have hp : a.path = pathOf (a.data.drop 1) := by
    unfold Request.path; rw [if_neg (by rw [hi]; decide)]
  have h10 : ¬ a.ins = 0x10 := by rw [hi]; decide
  unfold startDemands
  simp only [if_neg h10, if_pos hi, hat, hp]
  unfold Device.deriveAddress
  rw [hb]
  simp only [Bool.false_eq_true, if_false]
  cases hd : a.data with
  | nil =>
    refine .cons (by decide) (fun _ => rfl) (fun h => ?_)
    simp [field, be] at h
  | cons n rest =>
    rw [hd] at hf
    simp only [bufU8, List.drop_succ_cons, List.drop_zero, List.headD_cons, List.length_cons] at hf ⊢
    rw [← hf]
    refine .cons (by decide) (fun h => ?_) (fun h1 => .cons (by decide) (fun h => ?_) (fun h2 => ?_))
    · rw [parsePath_short (by
        intro hh
        simp only [decide_eq_true_eq] at hh
        exact h ⟨hh.1, hh.2.1, by omega⟩)]
      rfl
    · rw [parsePath_long (by
        simp only [decide_eq_true_eq]
        exact ⟨h1.1, h1.2.1, by omega⟩) (by simp only [decide_eq_true_eq]; omega)]
      rfl
    rcases parse_pathToken rest (a.p2 = 2) with ⟨g1, g2, token, g3⟩ | ⟨g1, _⟩
    swap
    · refine absurd ⟨?_, h1.1, h1.2.1⟩ g1
      simp only [decide_eq_true_eq]
      omega
    have ht := token_of_da hi hd g3
    subst ht
    simp only [g3]
    refine .cons (by decide) (fun h => ?_) (fun h3 => .cons (by decide) (fun h => ?_) (fun h4 => ?_))
    · rw [if_pos (mt (validate_address _).1 h)]; rfl
    · rw [if_neg (by simpa using (validate_address _).2 h3)]
      simp only [Option.not_isSome_iff_eq_none] at h
      rw [h]; rfl
    rw [if_neg (by simpa using (validate_address _).2 h3)]
    obtain ⟨q, hq⟩ := Option.isSome_iff_exists.1 h4
    simp only [hq]
    refine .cons (by decide) (fun h => ?_) (fun h5 => ?_)
    · have : addressFromPubkey env n q.1 = none := by
        unfold addressFromPubkey
        rw [if_neg]
        unfold networkValid
        simpa using h
      rw [this]
      rfl
    obtain ⟨raw, hr⟩ : ∃ raw, addressFromPubkey env n q.1 = some raw := by
      unfold addressFromPubkey
      rw [if_pos (by unfold networkValid; simpa using h5)]
      exact ⟨_, rfl⟩
    have hk := isKnown_saved a.token d.connectedApp
    simp only [hr]
    rw [show (d.setCommand .deriveAddress).connectedApp = d.connectedApp from rfl]
    by_cases hkn : a.p1 = 1 ∧ isKnown a.token d.connectedApp = true
    · rw [if_pos ⟨by rw [hkn.1]; decide, hkn.2⟩]
      exact .cons (by decide) (fun h => absurd (.inl ⟨(hk.1 hkn.2).1, (hk.1 hkn.2).2, hkn.1⟩) h)
        (fun _ => .nil (.inl ⟨_, rfl⟩))
    · have hk2 : ¬ (a.token ≠ 0 ∧ a.token = d.connectedApp ∧ a.p1 = 1) :=
        fun hh => hkn ⟨hh.2.2, hk.2 ⟨hh.1, hh.2.1⟩⟩
      rw [if_neg (by
        rintro ⟨g1, g2⟩
        refine hkn ⟨?_, g2⟩
        rcases hp1 with g | g
        · exact g
        · simp [g] at g1)]
      refine .cons (by decide) (fun h => ?_) (fun h => .nil (.inr (.inl ?_)))
      · exact showAddress_error hwf h3 g2 hr (fun hh => h (.inr hh))
      · rcases showAddress_reply hwf (d := d.setCommand .deriveAddress) (send := !decide (a.p1 = 2))
          (token := a.token) h3 g2 hr with ⟨g1, _⟩ | ⟨_, g⟩
        · exact g1
        · exact absurd (h.resolve_left hk2) g

theorem attestInit_error {d : Bytes} {b : Bool} {s : UInt8}
    (h : d.length = 55 + (if b then 4 else 0)) :
    (¬ field d 50 1 ≤ 20 → attestInit d b s = .error Sw.tooManyTokens) ∧
    (field d 50 1 ≤ 20 → ¬ (field d 42 4 ≤ 32768 ∧ field d 51 4 ≤ 32768) →
      attestInit d b s = .error Sw.tooMuchData) := by
  obtain ⟨i, hi⟩ := attestParse_exact h
  obtain ⟨f1, f2, f3⟩ := attestParse_fields hi
  rw [f1, f2, f3]
  unfold attestInit boxInit
  simp only [hi]
  refine ⟨fun h1 => ?_, fun h1 h2 => ?_⟩
  · rw [if_pos (by simp only [tokenMax]; omega)]; rfl
  · rw [if_neg (by simp only [tokenMax]; omega)]
    by_cases h3 : i.treeSize.toNat > maxPart
    · rw [if_pos h3]; rfl
    · rw [if_neg h3, if_pos (by simp only [maxPart] at h3 ⊢; omega)]; rfl

theorem why_attestStart {env : Env} {d : Device} (hb : d.busy = false) (a : Request) (hi : a.ins = 0x20)
    (hp1 : a.p1 = 1) :
    Answers a.rnd (startDemands env d.connectedApp a) (d.attestInput env a.p1 a.p2 a.data a.rnd).2 := by
  have h10 : ¬ a.ins = 0x10 := by rw [hi]; decide
  have h11 : ¬ a.ins = 0x11 := by rw [hi]; decide
  unfold startDemands
  simp only [if_neg h10, if_neg h11, if_pos hi]
  unfold Device.attestInput
  rw [hb]
  simp only [Bool.false_eq_true, if_false, hp1, if_true]
  refine .cons (by decide) (fun h => ?_) (fun h0 => ?_)
  · rw [if_pos (show a.p2 ≠ 0x01 ∧ a.p2 ≠ 0x02 from not_or.1 h)]; rfl
  rw [if_neg (show ¬ (a.p2 ≠ 0x01 ∧ a.p2 ≠ 0x02) from fun hh => h0.elim hh.1 hh.2)]
  unfold Device.attestStart
  refine .cons (by decide) (fun h => ?_) (fun h1 => .cons (by decide) (fun h => ?_) (fun h2 => ?_))
  · unfold attestInit
    rw [attestParse_error.1 (by simpa using h)]; rfl
  · unfold attestInit
    rw [attestParse_error.2 (by simpa using h1) (by simpa using h)]; rfl
  have hl : a.data.length = 55 + (if decide (a.p2 = 2) = true then 4 else 0) := by
    simp only [decide_eq_true_eq]; omega
  have he := attestInit_error (s := 0) hl
  refine .cons (by decide) (fun h => ?_) (fun h3 => .cons (by decide) (fun h => ?_) (fun h4 =>
    .cons (by decide) (fun h => ?_) (fun h5 => ?_)))
  · rw [he.1 h]; rfl
  · rw [he.2 h3 (fun hh => h hh.1)]; rfl
  · rw [he.2 h3 (fun hh => h hh.2)]; rfl
  · obtain ⟨x, hx⟩ := (attestInit_iff a.data (a.p2 = 2) 0).2 ⟨hl, h3, h4, h5⟩
    rw [hx]
    refine .nil ?_
    simp only
    cases hs : newSession 0 a.rnd.u8s with
    | none => exact .inr (.inr ⟨rfl, noId hs⟩)
    | some s =>
      simp only
      split
      · exact .inl ⟨_, rfl⟩
      · exact .inr (.inl rfl)

theorem p2pkInit_error (env : Env) (path : List UInt32) (network : UInt8) (draws : Nat → Bytes) :
    (¬ IsAddressPath path → p2pkInit env path network draws = .err Sw.bip32BadPath) ∧
    (IsAddressPath path → ¬ (network = 0 ∨ network = 16) →
      p2pkInit env path network draws = .err Sw.badNetType) ∧
    (IsAddressPath path → (network = 0 ∨ network = 16) →
      ¬ (∃ secret, env.genPrivate path = some secret ∧ UsableScalar env secret ∧
        ∃ j < 100, UsableScalar env (draws j)) →
      p2pkInit env path network draws = .err Sw.internalCryptoError) := by
  have hn : networkSupported network = true ↔ network = 0 ∨ network = 16 := by
    unfold networkSupported networkMainnet
    simp
  refine ⟨fun h => ?_, fun h1 h => ?_, fun h1 h2 h => ?_⟩
  · unfold p2pkInit
    rw [if_pos (mt (validate_address _).1 h)]
  · unfold p2pkInit
    rw [if_neg (by simpa using (validate_address _).2 h1), if_pos (mt hn.1 h)]
  · unfold p2pkInit
    rw [if_neg (by simpa using (validate_address _).2 h1), if_neg (by simpa using hn.2 h2)]
    cases h3 : env.genPrivate path with
    | none => rfl
    | some secret =>
      have hl := initLoop_iff env secret draws 100 0
      simp only [schnorrInit]
      cases h4 : schnorrInitLoop env secret draws 100 0 with
      | none => rfl
      | some q =>
        obtain ⟨g1, j, -, g2, g3⟩ := hl.1 ⟨q, h4⟩
        exact absurd ⟨secret, h3, g1, j, by omega, g3⟩ h

theorem why_signStart {env : Env} {d : Device} (hb : d.busy = false) (a : Request) (hi : a.ins = 0x21)
    (hp1 : a.p1 = 1) :
    Answers a.rnd (startDemands env d.connectedApp a) (d.signTransaction env a.p1 a.p2 a.data a.rnd).2 := by
  have h10 : ¬ a.ins = 0x10 := by rw [hi]; decide
  have h11 : ¬ a.ins = 0x11 := by rw [hi]; decide
  have h20 : ¬ a.ins = 0x20 := by rw [hi]; decide
  have hid : a.IdDrawn ↔ ∃ i ∈ a.rnd.u8s, i ≠ 0 := by
    unfold Request.IdDrawn
    rw [hi]
    simp
  have hp : a.path = pathOf (a.data.drop 1) := by
    unfold Request.path; rw [if_neg (by rw [hi]; decide)]
  unfold startDemands
  simp only [if_neg h10, if_neg h11, if_neg h20, hp]
  rw [hid, ← newSession_iff]
  unfold Device.signTransaction
  rw [hb]
  simp only [Bool.false_eq_true, if_false, hp1, if_true]
  refine .cons (by decide) (fun h => ?_) (fun h0 => ?_)
  · rw [if_pos (show a.p2 ≠ 0x01 ∧ a.p2 ≠ 0x02 from not_or.1 h)]; rfl
  rw [if_neg (show ¬ (a.p2 ≠ 0x01 ∧ a.p2 ≠ 0x02) from fun hh => h0.elim hh.1 hh.2)]
  unfold Device.signStart
  obtain ⟨e1, e2, e3, e4⟩ := parseSign_err (d := a.data) (b := decide (a.p2 = 2))
  simp only [decide_eq_true_eq] at e3 e4
  refine .cons (by decide) (fun h => ?_) (fun h1 => .cons (by decide) (fun h => ?_) (fun h2 =>
    .cons (by decide) (fun h => ?_) (fun h3 => .cons (by decide) (fun h => ?_) (fun h4 => ?_))))
  · rw [e1 h]; rfl
  · rw [e2 h1 h]; rfl
  · rw [e3 h1 h2 h]; rfl
  · rw [e4 h1 h2 h3 h]; rfl
  rcases parse_signInit a.data (a.p2 = 2) with ⟨g1, g2, token, g3⟩ | ⟨g1, _⟩
  swap
  · refine absurd ⟨?_, h2.1, h2.2.1⟩ g1
    simp only [decide_eq_true_eq]
    omega
  simp only [g3]
  obtain ⟨p1, p2, p3⟩ := p2pkInit_error env (pathOf (a.data.drop 1)) (a.data.headD 0) a.rnd.keys
  refine .cons (by decide) (fun h => ?_) (fun h5 => .cons (by decide) (fun h => ?_) (fun h6 =>
    .cons (by decide) (fun h => ?_) (fun h7 => ?_)))
  · rw [p1 h]; rfl
  · rw [p2 h5 h]; rfl
  · rw [p3 h5 h6 h]; rfl
  rcases p2pkInit_iff env (pathOf (a.data.drop 1)) (a.data.headD 0) a.rnd.keys with
    ⟨⟨p, q1⟩, _⟩ | ⟨_, q2⟩
  swap
  · exact absurd ⟨h5, h6, h7⟩ q2
  simp only [q1]
  cases hs : newSession 0 a.rnd.u8s with
  | none =>
    exact .cons (by decide) (fun h => absurd (fun hh => by simp at hh) h)
      (fun _ => .nil (.inr (.inr ⟨rfl, noId hs⟩)))
  | some s =>
    simp only
    cases hf : pathFormat (pathOf (a.data.drop 1)) bip32StrLen with
    | none =>
      exact .cons (by decide) (fun _ => rfl)
        (fun h => absurd (h ⟨s, rfl⟩) (pathFormat_none (address_ne_nil h5) g2 hf))
    | some t =>
      exact .cons (by decide) (fun h => absurd (fun _ => pathFormat_need hf) h)
        (fun _ => .nil (.inr (.inl rfl)))

end Ergo
