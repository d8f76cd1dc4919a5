import Verif.Spec.Reference
/-!
# Everything on the display

The pages of every question, in their order, and from this what is on the display after a sequence of
observations.  `ShowRes` is what becomes of a page: it is shown, or it cannot be shown (`err`), or the
device is undefined (`ub`).
-/
namespace Ergo.Spec

/-- The page of a script. -/
noncomputable def scriptPage (env : Env) (network : UInt8) (b : Bytes) : Page :=
  open scoped Classical in
  if IsKeyScript b (b.drop 3) then ⟨.address, .text (addressText env 1 network (b.drop 3))⟩
  else if IsHashScript b ((b.drop 17).take 24) then
    ⟨.scriptHash, .text (addressText env 2 network ((b.drop 17).take 24))⟩
  else ⟨.scriptHash, .text (addressText env 2 network ((env.blake b).take 24))⟩

/-- The tokens of an output with their amounts, in the order of the token table. -/
def outTokens (D : TxDesc) (o : OutDesc) : List (Bytes × Nat) :=
  (D.table.eraseDups.filter (fun id => tokRefs D.table o.box.tokens id ≠ 0)).map
    (fun id => (id, tokRefs D.table o.box.tokens id))

/-- The tokens that are burned or minted, with the difference: first those in the token table, in its
order, then the others, in the order in which they were sent with the inputs. -/
def burnedMinted (D : TxDesc) : List (Bytes × Int) :=
  ((D.table ++ D.inputs.reverse.flatMap (fun i => i.tokens.map (fun t => t.1))).eraseDups.filter
    (fun id => D.tokIn id ≠ D.tokOut id)).map (fun id => (id, (D.tokIn id : Int) - (D.tokOut id : Int)))

/-- The pages about the newest output. -/
noncomputable def outputShown (env : Env) (nanoS : Bool) (network : UInt8) (D : TxDesc) : List ShowRes :=
  match D.outputs with
  | [] => []
  | o :: _ =>
    let rest := .page ⟨.outputValue, .erg (UInt64.ofNat o.box.value)⟩ ::
      tokenListPages nanoS amountPage (outTokens D o)
    match o.box.script with
    | some (.change p) =>
      [if 70 ≤ pathNeed p then .err 0xE101 else .page ⟨.change, .text ((pathText p).take 69)⟩]
    | some (.raw b) => .page (scriptPage env network b) :: rest
    | some .fee => .page ⟨.fee, .text "Miners Fee".toList⟩ :: rest
    | none => []

/-- The pages about the transaction. -/
def txShown (nanoS : Bool) (path : List UInt32) (D : TxDesc) : List ShowRes :=
  .page ⟨.p2pkPath, .text (pathText path)⟩ ::
  .page ⟨.txAmount, .erg (UInt64.ofNat
    (D.sumIn - (D.sumOut Script.isChange + D.sumOut Script.isFee)))⟩ ::
  .page ⟨.txFee, .erg (UInt64.ofNat (D.sumOut Script.isFee))⟩ ::
  tokenListPages nanoS balancePage (burnedMinted D)

/-- The pages of a question before Approve and Reject. -/
noncomputable def Ghost.shown (env : Env) (nanoS : Bool) (g : Ghost) (a : Request) : List ShowRes :=
  if a.ins = 0x21 ∧ a.p1 ≠ 0x01 then
    match g.sign with
    | none => []
    | some S =>
      .page ⟨a.title, .nothing⟩ ::
        if a.p1 = 0x20 then txShown nanoS (pathOf (S.start.data.drop 1)) (describe S.log)
        else outputShown env nanoS (S.start.data.headD 0) (describe S.log)
  else if a.ins = 0x21 then
    (pathPage a.title (pathOf (a.data.drop 1)) ::
      if a.token ≠ 0 ∧ a.token = g.app then [] else [⟨.application, .appToken a.token⟩]).map .page
  else
    (⟨a.title, .nothing⟩ ::
      (if a.ins = 0x20 then []
       else if a.ins = 0x10 then [pathPage .path (pathOf a.data)]
       else pathPage .path (pathOf (a.data.drop 1)) ::
         if a.p1 = 2 then [⟨.address, .text (base58 ((a.exports env).getD []))⟩] else []) ++
      tokenPages a.token).map .page

/-- The pages of the question that is asked. -/
noncomputable def Ghost.shownNow (env : Env) (nanoS : Bool) (g : Ghost) : List ShowRes :=
  (g.pending.map (g.shown env nanoS)).getD []

/-- What is on the display (`none`: the menu, Approve or Reject). -/
noncomputable def display (env : Env) (nanoS : Bool) (tr : List Obs) : Option ShowRes :=
  (position tr).bind (fun k => ((know tr).shownNow env nanoS)[k]?)

/-- The reply to paging, from what is reached. -/
def reached : Option ShowRes → Reply
  | some (.err sw) => .sw sw []
  | some .ub => .ub
  | _ => .wait

/-- The reply to every event, including those to which it is undefined. -/
noncomputable def foretold (env : Env) (nanoS : Bool) (key : Bytes) (tr : List Obs) : Event → Reply
  | .left => reached ((position tr).bind (fun k =>
      ((know tr).shownNow env nanoS)[leftOf (know tr).pagesNow k]?))
  | .right => reached ((position tr).bind (fun k =>
      ((know tr).shownNow env nanoS)[rightOf (know tr).pagesNow k]?))
  | e => expected env key tr e

end Ergo.Spec
