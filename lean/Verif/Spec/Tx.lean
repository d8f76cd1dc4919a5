import Verif.Spec.Vlq
import Verif.Spec.Schnorr
/-!
# What a sequence of commands describes, and its Ergo serialization

Written from the command documentation and the Ergo transaction format only: commands are byte
strings, a description is plain data, the serialization is concatenation.  Lists of inputs and
outputs are kept newest first.
-/
namespace Ergo.Spec

/-- Consecutive pieces of `n` bytes (the last one may be shorter). -/
def pieces (n : Nat) (b : Bytes) : List Bytes :=
  if _h : n = 0 ∨ b = [] then [] else b.take n :: pieces n (b.drop n)
termination_by b.length
decreasing_by
  have : 0 < b.length := List.length_pos_iff.2 (fun e => _h (.inr e))
  simp only [List.length_drop]; omega

/-- Big-endian number at an offset. -/
def field (d : Bytes) (off len : Nat) : Nat := be ((d.drop off).take len)

/-- A token entry with explicit id: 32 bytes of id, 8 bytes of amount. -/
def tok40 (b : Bytes) : Bytes × Nat := (b.take 32, be (b.drop 32))
/-- A token entry with an index into the token table: 4 bytes of index, 8 bytes of amount. -/
def tok12 (b : Bytes) : Nat × Nat := (be (b.take 4), be (b.drop 4))

/-- A path: number of components, then 4 bytes per component. -/
def pathOf (d : Bytes) : List UInt32 :=
  (pieces 4 ((d.drop 1).take (4 * field d 0 1))).map (fun b => UInt32.ofNat (be b))

/-- The script of an output: bytes sent by the host, the miners' fee contract, or a key of this
device. -/
inductive Script where
  | raw (b : Bytes)
  | fee
  | change (path : List UInt32)
  deriving DecidableEq, Repr

/-- A box as declared and as received so far; tokens are pairs (what identifies it, amount). -/
structure BoxDesc (α : Type) where
  value : Nat
  treeSize : Nat
  height : Nat
  nTokens : Nat
  regsSize : Nat
  script : Option Script
  tokens : List (α × Nat)
  regs : Bytes
  deriving DecidableEq, Repr

variable {α : Type}

/-- The script is complete. -/
def BoxDesc.scriptDone (o : BoxDesc α) : Bool :=
  match o.script with
  | none => false
  | some (.raw b) => b.length = o.treeSize
  | some _ => true

/-- Everything declared has been received, and nothing more. -/
def BoxDesc.complete (o : BoxDesc α) : Bool :=
  o.scriptDone && o.tokens.length = o.nTokens && o.regs.length = o.regsSize

/-- More script bytes. -/
def BoxDesc.addTree (o : BoxDesc α) (d : Bytes) : BoxDesc α :=
  match o.script with
  | some (.raw b) => { o with script := some (.raw (b ++ d)) }
  | _ => { o with script := some (.raw d) }

/-- The miners' fee contract (mainnet, delay 720). -/
def feeTree : Bytes :=
  [16, 5, 4, 0, 4, 0, 14, 54, 16, 2, 4, 160, 11, 8, 205, 2, 121, 190, 102, 126, 249, 220, 187, 172,
   85, 160, 98, 149, 206, 135, 11, 7, 2, 155, 252, 219, 45, 206, 40, 217, 89, 242, 129, 91, 22,
   248, 23, 152, 234, 2, 209, 146, 163, 154, 140, 199, 167, 1, 115, 0, 115, 1, 16, 1, 2, 4, 2, 209,
   150, 131, 3, 1, 147, 163, 140, 199, 178, 165, 115, 0, 0, 1, 147, 194, 178, 165, 115, 1, 0, 116,
   115, 2, 115, 3, 131, 1, 8, 205, 238, 172, 147, 177, 165, 115, 4]

/-- Script bytes; `keyOf` is the compressed public key of a path. -/
def scriptBytes (keyOf : List UInt32 → Bytes) : Script → Bytes
  | .raw b => b
  | .fee => feeTree
  | .change p => [0x00, 0x08, 0xcd] ++ keyOf p

/-- Serialization of a box candidate: value, script, creation height, tokens, registers.
`enc` writes what identifies a token. -/
def boxBytes (enc : α → Bytes) (keyOf : List UInt32 → Bytes) (o : BoxDesc α) : Bytes :=
  vlq o.value ++ (o.script.map (scriptBytes keyOf)).getD [] ++ vlq o.height ++
    [UInt8.ofNat o.nTokens] ++ o.tokens.flatMap (fun t => enc t.1 ++ vlq t.2) ++
    (if o.regsSize = 0 then [0] else o.regs)

/-- Serialization of the part of a box candidate that is known so far: value and script bytes; with
the whole script also the height, the declared number of tokens and the tokens; with all tokens also
the registers. -/
def boxSoFar (enc : α → Bytes) (keyOf : List UInt32 → Bytes) (o : BoxDesc α) : Bytes :=
  vlq o.value ++ (o.script.map (scriptBytes keyOf)).getD [] ++
    if o.scriptDone then
      vlq o.height ++ [UInt8.ofNat o.nTokens] ++ o.tokens.flatMap (fun t => enc t.1 ++ vlq t.2) ++
        if o.tokens.length = o.nTokens then (if o.regsSize = 0 then [0] else o.regs) else []
    else []

/-- An input as declared and as received so far. -/
structure InDesc where
  boxId : Bytes
  value : Nat
  frames : Nat
  got : Nat
  tokens : List (Bytes × Nat)
  extSize : Nat
  ext : Bytes
  deriving DecidableEq, Repr

/-- All frames and the whole context extension have been received. -/
def InDesc.complete (i : InDesc) : Bool := i.got = i.frames && i.ext.length = i.extSize

/-- Serialization of an unsigned input: box id, empty proof, context extension. -/
def inputBytes (i : InDesc) : Bytes :=
  i.boxId ++ [0] ++ (if i.extSize = 0 then [0] else i.ext)

/-- An output with the mark "approved on screen". -/
structure OutDesc where
  box : BoxDesc Nat
  approved : Bool
  deriving DecidableEq, Repr

/-- The transaction described so far. -/
structure TxDesc where
  nIn : Nat
  nData : Nat
  nTok : Nat
  nOut : Nat
  table : List Bytes
  inputs : List InDesc
  dataInputs : List Bytes
  outputs : List OutDesc
  deriving DecidableEq, Repr

/-- Nothing described yet. -/
def TxDesc.empty : TxDesc := ⟨0, 0, 0, 0, [], [], [], []⟩

/-- The parameters of an output, before any of its parts. -/
def outHeader (d : Bytes) : BoxDesc Nat :=
  ⟨field d 0 8, field d 8 4, field d 12 4, field d 16 1, field d 17 4, none, [], []⟩

/-- Change of the newest output. -/
def TxDesc.onOutput (D : TxDesc) (f : BoxDesc Nat → BoxDesc Nat) : TxDesc :=
  match D.outputs with
  | [] => D
  | o :: os => { D with outputs := { o with box := f o.box } :: os }

/-- Change of the newest input. -/
def TxDesc.onInput (D : TxDesc) (f : InDesc → InDesc) : TxDesc :=
  match D.inputs with
  | [] => D
  | i :: is => { D with inputs := f i :: is }

/-- Token entries of a frame.  (The length is a one-byte number on the device.) -/
def frameToks (d : Bytes) : List (Bytes × Nat) :=
  (pieces 40 ((d.drop 43).take (40 * field d 42 1 % 256))).map tok40

/-- A frame: number 0 starts a new input, the others continue it. -/
def TxDesc.frame (D : TxDesc) (d : Bytes) : TxDesc :=
  if field d 33 1 = 0 then
    { D with inputs :=
        ⟨d.take 32, field d 34 8, field d 32 1, 1, frameToks d,
          field d (43 + 40 * field d 42 1 % 256 + 16) 4, []⟩ :: D.inputs }
  else D.onInput (fun i => { i with got := i.got + 1, tokens := i.tokens ++ frameToks d })

/-- One accepted step of a signing session: a command (subcommand byte and data) or the user's
approval of the output on display. -/
inductive Entry where
  | cmd (sub : UInt8) (data : Bytes)
  | approve
  deriving DecidableEq, Repr

/-- What a step adds to the description. -/
def TxDesc.step (D : TxDesc) : Entry → TxDesc
  | .approve =>
    match D.outputs with
    | [] => D
    | o :: os => { D with outputs := { o with approved := true } :: os }
  | .cmd sub d =>
    if sub = 0x10 then
      { TxDesc.empty with
        nIn := field d 0 2, nData := field d 2 2, nTok := field d 4 1, nOut := field d 5 2 }
    else if sub = 0x11 then { D with table := D.table ++ pieces 32 d }
    else if sub = 0x12 then D.frame d
    else if sub = 0x13 then D.onInput (fun i => { i with ext := i.ext ++ d })
    else if sub = 0x14 then { D with dataInputs := D.dataInputs ++ pieces 32 d }
    else if sub = 0x15 then { D with outputs := ⟨outHeader d, false⟩ :: D.outputs }
    else if sub = 0x16 then D.onOutput (fun o => o.addTree d)
    else if sub = 0x17 then D.onOutput (fun o => { o with script := some .fee })
    else if sub = 0x18 then D.onOutput (fun o => { o with script := some (.change (pathOf d)) })
    else if sub = 0x19 then
      D.onOutput (fun o => { o with tokens := o.tokens ++ (pieces 12 d).map tok12 })
    else if sub = 0x1A then D.onOutput (fun o => { o with regs := o.regs ++ d })
    else D

/-- The transaction described by a session. -/
def describe (es : List Entry) : TxDesc := es.foldl TxDesc.step TxDesc.empty

/-- Everything declared has been received, exactly. -/
structure TxDesc.Complete (D : TxDesc) : Prop where
  inputs : D.inputs.length = D.nIn
  inputsDone : ∀ i ∈ D.inputs, i.complete
  dataInputs : D.dataInputs.length = D.nData
  table : D.table.length = D.nTok
  outputs : D.outputs.length = D.nOut
  outputsDone : ∀ o ∈ D.outputs, o.box.complete

/-- Ergo serialization of the unsigned transaction. -/
def txBytes (keyOf : List UInt32 → Bytes) (D : TxDesc) : Bytes :=
  vlq D.inputs.length ++ D.inputs.reverse.flatMap inputBytes ++
  vlq D.dataInputs.length ++ D.dataInputs.flatten ++
  vlq D.table.length ++ D.table.flatten ++
  vlq D.outputs.length ++ D.outputs.reverse.flatMap (fun o => boxBytes vlq keyOf o.box)

/-- The same for a session in which outputs may have been given up before they were complete: with
the declared numbers, and the known part of every output. -/
def txBytesSoFar (keyOf : List UInt32 → Bytes) (D : TxDesc) : Bytes :=
  vlq D.nIn ++ D.inputs.reverse.flatMap inputBytes ++ vlq D.nData ++ D.dataInputs.flatten ++
  vlq D.nTok ++ D.table.flatten ++
  vlq D.nOut ++ D.outputs.reverse.flatMap (fun o => boxSoFar vlq keyOf o.box)

/-! ## Balances -/

/-- Sum of the input values. -/
def TxDesc.sumIn (D : TxDesc) : Nat := (D.inputs.map (·.value)).sum

/-- Sum of the values of the outputs whose script satisfies `p`. -/
def TxDesc.sumOut (p : Script → Bool) (D : TxDesc) : Nat :=
  (D.outputs.map (fun o => match o.box.script with
    | some s => if p s then o.box.value else 0
    | none => 0)).sum

/-- The script is the fee contract command. -/
def Script.isFee : Script → Bool | .fee => true | _ => false
/-- The script is a change script. -/
def Script.isChange : Script → Bool | .change _ => true | _ => false

/-- Amount of token `id` in the inputs. -/
def TxDesc.tokIn (D : TxDesc) (id : Bytes) : Nat :=
  (D.inputs.map (fun i => ((i.tokens.filter (·.1 = id)).map (·.2)).sum)).sum

/-- Amount of token `id` in a list of table references. -/
def tokRefs (table : List Bytes) (l : List (Nat × Nat)) (id : Bytes) : Nat :=
  ((l.filter (fun t => table[t.1]? = some id)).map (·.2)).sum

/-- Amount of token `id` in the outputs. -/
def TxDesc.tokOut (D : TxDesc) (id : Bytes) : Nat :=
  (D.outputs.map (fun o => tokRefs D.table o.box.tokens id)).sum

end Ergo.Spec
