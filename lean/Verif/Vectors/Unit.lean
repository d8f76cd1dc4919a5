import Verif.Model.Blake2b
import Verif.Model.Full
import Verif.Model.InputFrame
import Verif.Model.Bip32
import Verif.Proof.Toy
/-!
# Unit tests of the repository, run on the model

These are tests, not proofs: the inputs and expected results of `unit-tests/test_*.c`, evaluated by the
kernel on the definitions of the model.  They check the model, not the code.  Tests that hand over a
context without initialization or a hash that fails have no counterpart.
-/
namespace Ergo.Vectors

/-- The stand-in environment of the unit tests: only the hash is real. -/
def unitEnv : Env := { toyEnv with blake := fun d => (Blake2b.hash 32 d).getD [] }

/-! ### test_safeint.c -/

example : checkedAddU64 0 0 = some 0 ∧ checkedAddU64 0 0xFFFFFFFFFFFFFFFF = some 0xFFFFFFFFFFFFFFFF ∧
    checkedAddU64 1 0xFFFFFFFFFFFFFFFF = none ∧ checkedAddU64 1 2 = some 3 ∧ checkedSubU64 0 0 = some 0 ∧
    checkedSubU64 0xFFFFFFFFFFFFFFFF 0xFFFFFFFFFFFFFFFF = some 0 ∧ checkedSubU64 0 1 = none := by
  decide +kernel

/-! ### test_zigzag.c -/

example : zigzagEncodeI32 0 = 0 ∧ zigzagEncodeI32 (-1) = 1 ∧ zigzagEncodeI32 1 = 2 ∧
    zigzagEncodeI32 (-123456) = 246911 ∧ (zigzagEncodeI32 (-2147483648)).toUInt32 = 4294967295 ∧
    (zigzagEncodeI32 2147483647).toUInt32 = 4294967294 := by
  decide +kernel

example : zigzagEncodeI64 0 = 0 ∧ zigzagEncodeI64 (-1) = 1 ∧ zigzagEncodeI64 1 = 2 ∧
    zigzagEncodeI64 (-12345678901) = 24691357801 ∧
    zigzagEncodeI64 (-9223372036854775808) = 18446744073709551615 ∧
    zigzagEncodeI64 9223372036854775807 = 18446744073709551614 := by
  decide +kernel

example : zigzagDecodeI32 0 = 0 ∧ zigzagDecodeI32 1 = -1 ∧ zigzagDecodeI32 2 = 1 ∧
    zigzagDecodeI32 246911 = -123456 ∧ zigzagDecodeI32 4294967295 = -2147483648 ∧
    zigzagDecodeI32 4294967294 = 2147483647 := by
  decide +kernel

example : zigzagDecodeI64 0 = 0 ∧ zigzagDecodeI64 1 = -1 ∧ zigzagDecodeI64 2 = 1 ∧
    zigzagDecodeI64 24691357801 = -12345678901 ∧
    zigzagDecodeI64 18446744073709551615 = -9223372036854775808 ∧
    zigzagDecodeI64 18446744073709551614 = 9223372036854775807 := by
  decide +kernel

/-! ### test_gve.c -/

example : gveGetU16 [0x83, 0x82, 0x01] = .ok (16643, []) ∧
    gveGetU16 [0x84, 0x83, 0x82, 0x01] = .error .intTooBig ∧
    gveGetI16 [0x83, 0x82, 0x01] = .ok (-8322, []) ∧
    gveGetU32 [0x84, 0x83, 0x82, 0x01] = .ok (2130308, []) ∧
    gveGetI32 [0x85, 0x83, 0x82, 0x01] = .ok (-1065155, []) ∧
    gveGetU64 [0x86, 0x85, 0x84, 0x83, 0x82, 0x01] = .ok (34902966918, []) ∧
    gveGetI64 [0x87, 0x85, 0x84, 0x83, 0x82, 0x01] = .ok (-17451483460, []) := by
  refine ⟨?_, ?_, ?_, ?_, ?_, ?_, ?_⟩ <;> rfl

example : gvePutU16 16643 = [0x83, 0x82, 0x01] ∧ gvePutI16 (-8322) = [0x83, 0x82, 0x01] ∧
    gvePutU32 2130308 = [0x84, 0x83, 0x82, 0x01] ∧ gvePutI32 (-1065155) = [0x85, 0x83, 0x82, 0x01] ∧
    gvePutU64 34902966918 = [0x86, 0x85, 0x84, 0x83, 0x82, 0x01] ∧
    gvePutI64 (-17451483460) = [0x87, 0x85, 0x84, 0x83, 0x82, 0x01] := by
  decide +kernel

/-! ### test_bip32.c -/

example : ([([0x8000002C, 0x800001AD, 0x80000000], .accountE3),
    ([0x8000002C, 0x800001AD, 0x80000000], .accountGe3),
    ([0x8000002C, 0x800001AD, 0x80000000, 0x80000001], .accountGe3),
    ([0x8000002C, 0x800001AD, 0x80000000, 0x80000001, 0x80000002], .accountGe3),
    ([0x8000002C, 0x800001AD, 0x80000000, 0, 1], .addressE5),
    ([0x8000002C, 0x800001AD, 0x80000000, 0, 1], .addressGe5),
    ([0x8000002C, 0x800001AD, 0x80000000, 0, 1, 2], .addressGe5),
    ([0x8000002C, 0x800001AD, 0x80000000, 1, 1, 1], .addressGe5)] :
    List (List UInt32 × PathKind)).all (fun x => pathValidate x.1 x.2) = true := by
  decide +kernel

example : ([[0x8000002C, 0x800001AD],
    [0x8000002C, 0x800001AD, 128],
    [0x80000000, 0x800001AD, 0x80000000],
    [0x8000002C, 0x80000000, 0x80000000],
    [0x8000002C, 0x800001AD, 0x80000000, 0],
    [0x8000002C, 0x800001AD, 0x80000000, 1, 2],
    [0x8000002C, 0x800001AD, 0x80000000, 0x80000000, 2],
    [0x8000002C, 0x800001AD, 0x80000000, 1, 0x80000000]] :
    List (List UInt32)).all (fun x => !pathValidate x .accountE3 && !pathValidate x .accountGe3) = true := by
  decide +kernel

example : ([[0x8000002C, 0x800001AD],
    [0x8000002C, 0x800001AD, 0x80000000],
    [0x8000002C, 0x800001AD, 0x80000000, 0],
    [0x8000002C, 0x800001AD, 0x80000000, 0x80000000, 2],
    [0x8000002C, 0x800001AD, 0x80000000, 3, 2],
    [0x8000002C, 0x800001AD, 0x80000000, 1, 0x80000000],
    [0x80000000, 0x800001AD, 0x80000000, 1, 1],
    [0x8000002C, 0x80000000, 0x80000000, 1, 1]] :
    List (List UInt32)).all (fun x => !pathValidate x .addressE5 && !pathValidate x .addressGe5) = true := by
  decide +kernel

example : pathValidate [0x8000002C, 0x800001AD, 0x80000000, 1, 1, 1] .addressE5 = false := by
  decide +kernel

/-! ### test_address.c, test_ergo_tree.c -/

/-- The public key of these tests. -/
def unitKey : Bytes := [4, 139, 159, 248, 93, 221, 159, 30, 34, 136, 252, 83, 157, 57, 199, 196, 238,
    183, 165, 86, 244, 216, 17, 203, 115, 153, 100, 24, 222, 90, 189, 203, 42, 250, 45, 83, 23, 22, 10,
    89, 80, 15, 93, 49, 250, 232, 107, 206, 233, 171, 26, 96, 83, 161, 29, 83, 93, 45, 4, 60, 229, 207,
    241, 10, 231]

example : addressFromPubkey unitEnv 0 unitKey = some [1, 3, 139, 159, 248, 93, 221, 159, 30, 34, 136,
    252, 83, 157, 57, 199, 196, 238, 183, 165, 86, 244, 216, 17, 203, 115, 153, 100, 24, 222, 90, 189,
    203, 42, 181, 45, 202, 206] := by
  decide +kernel

example : treeGenerateP2pk unitKey = [0, 8, 205, 3, 139, 159, 248, 93, 221, 159, 30, 34, 136, 252, 83,
    157, 57, 199, 196, 238, 183, 165, 86, 244, 216, 17, 203, 115, 153, 100, 24, 222, 90, 189, 203, 42]
    := by
  decide +kernel

example : minersFeeTree = [16, 5, 4, 0, 4, 0, 14, 54, 16, 2, 4, 160, 11, 8, 205, 2, 121, 190, 102, 126,
    249, 220, 187, 172, 85, 160, 98, 149, 206, 135, 11, 7, 2, 155, 252, 219, 45, 206, 40, 217, 89, 242,
    129, 91, 22, 248, 23, 152, 234, 2, 209, 146, 163, 154, 140, 199, 167, 1, 115, 0, 115, 1, 16, 1, 2,
    4, 2, 209, 150, 131, 3, 1, 147, 163, 140, 199, 178, 165, 115, 0, 0, 1, 147, 194, 178, 165, 115, 1,
    0, 116, 115, 2, 115, 3, 131, 1, 8, 205, 238, 172, 147, 177, 165, 115, 4] := by
  decide +kernel

/-! ### test_input_frame.c -/

example : frameDataLen (List.replicate 42 0 ++ List.replicate 57 1) = 83 ∧ frameDataLen (List.replicate 58 0) = 0 ∧
    frameDataLen (List.replicate 42 0 ++ List.replicate 56 1) = 0 := by
  decide +kernel

/-! ### test_tx_ser_table.c -/

/-- An id of equal bytes. -/
def same (b : UInt8) : Bytes := List.replicate 32 b

example : tableInit [same 1] 21 = .err .tooManyTokens ∧
    tableAdd 2 (same 1 ++ same 2) [] = ([same 1, same 2], .ok) ∧
    (tableAdd 1 (same 1 ++ same 2) []).2 = .err .tooManyTokens ∧
    (tableAdd 2 (same 1 ++ (same 2).take 31) []).2 = .err .badTokenId ∧
    (tableAdd 2 (same 2) []).2 = .more ∧
    tableBytes 1 (tableAdd 1 (same 1) []).1 = 1 :: same 1 := by
  decide +kernel

/-! ### test_tx_ser_input.c -/

/-- `test_box_id`. -/
def unitBox : Bytes := [241, 202, 30, 6, 10, 161, 31, 152, 155, 61, 112, 236, 14, 12, 152, 124, 149, 46,
    35, 137, 190, 91, 130, 11, 199, 219, 252, 50, 111, 134, 19, 115]

/-- `ERGO_TX_SERIALIZER_INPUT_INIT`. -/
def unitInput (frames : UInt8) (ext : UInt32) : InputSt :=
  ⟨(inputInit unitBox frames ext).1, [], { Amounts.zero with table := [same 1] }⟩

/-- `test_tokens_array`. -/
def unitTokens : Bytes := List.replicate 40 1

example : inputInit unitBox 1 3 = (⟨.framesStarted, unitBox, 1, 0, 3⟩, .ok) ∧
    (inputInit unitBox 1 1).1.state = .error ∧
    (inputInit unitBox 1 1).2 = .err .badContextExtensionSize := by
  decide +kernel

example : ((unitInput 1 3).addTokens unitBox 0 unitTokens).2 = .ok ∧
    ((unitInput 1 3).addTokens unitBox 0 unitTokens).1.h = unitBox ++ [0] ∧
    ((unitInput 1 3).addTokens unitBox 0 unitTokens).1.c.state = .extensionStarted ∧
    ((unitInput 1 0).addTokens unitBox 0 unitTokens).2 = .ok ∧
    ((unitInput 1 0).addTokens unitBox 0 unitTokens).1.h = unitBox ++ [0, 0] ∧
    ((unitInput 1 0).addTokens unitBox 0 unitTokens).1.c.state = .finished := by
  decide +kernel

example : (((unitInput 1 3).addTokens unitBox 0 unitTokens).1.addTokens unitBox 0 unitTokens).2 =
      .err .badState ∧
    ((unitInput 1 3).addTokens (same 1) 0 unitTokens).2 = .err .badInputId ∧
    ((unitInput 1 3).addTokens unitBox 1 unitTokens).2 = .err .tooManyInputFrames ∧
    ((unitInput 2 3).addTokens unitBox 1 unitTokens).2 = .err .badFrameIndex ∧
    ((unitInput 1 3).addTokens unitBox 0 (unitTokens.take 31)).2 = .err .badTokenId ∧
    ((unitInput 1 3).addTokens unitBox 0 (unitTokens.take 39)).2 = .err .badTokenValue ∧
    ((unitInput 1 3).addTokens unitBox 0 (unitTokens.take 39)).1.c.state = .error ∧
    ((unitInput 2 3).addTokens unitBox 0 unitTokens).2 = .more := by
  decide +kernel

example : (((unitInput 1 3).addTokens unitBox 0 unitTokens).1.addExtension [1, 2, 3]).2 = .ok ∧
    (((unitInput 1 3).addTokens unitBox 0 unitTokens).1.addExtension [1, 2, 3]).1.h =
      unitBox ++ [0, 1, 2, 3] ∧
    (((unitInput 1 3).addTokens unitBox 0 unitTokens).1.addExtension [1, 2, 3]).1.c.state = .finished ∧
    (((unitInput 1 3).addTokens unitBox 0 unitTokens).1.addExtension [1, 2, 3]).1.c.extSize = 0 ∧
    ((unitInput 1 3).addExtension [1, 2, 3]).2 = .err .badState ∧
    (((unitInput 1 3).addTokens unitBox 0 unitTokens).1.addExtension [1, 2, 3, 4]).2 =
      .err .tooMuchProofData ∧
    (((unitInput 1 3).addTokens unitBox 0 unitTokens).1.addExtension [1, 2]).2 = .more := by
  decide +kernel

/-! ### test_tx_ser_box.c -/

/-- No callbacks. -/
def noCbs : BoxCbs Unit :=
  ⟨fun _ _ s => (s, .ok), fun _ _ _ s => (s, .ok), fun _ s => (s, .ok)⟩

/-- `ERGO_TX_SERIALIZER_BOX_INIT`. -/
def unitBoxSt : BoxSt Unit :=
  let r := boxInit 12345 2 3 2 2 []
  ⟨r.1, r.2.1, ()⟩

example : boxInit 12345 2 3 2 2 [] = (⟨.initialized, 12345, 2, 3, 2, 2, .tree⟩, [0xb9, 0x60], .ok) ∧
    (boxInit 12345 2 3 21 1 []).2.2 = .err .tooManyTokens ∧
    (boxInit 12345 2 3 21 1 []).1.state = .error ∧
    (boxInit 12345 32769 3 1 1 []).2.2 = .err .tooMuchData ∧
    (boxInit 12345 2 3 1 32769 []).2.2 = .err .tooMuchData := by
  decide +kernel

example : (unitBoxSt.addTree noCbs [1, 2]).2 = .ok ∧
    (unitBoxSt.addTree noCbs [1, 2]).1.h = [0xb9, 0x60, 0x01, 0x02, 0x03, 0x02] ∧
    (unitBoxSt.addTree noCbs [1, 2]).1.c.type = .tree ∧
    (unitBoxSt.addTree noCbs [1, 2]).1.c.state = .treeAdded ∧
    ((unitBoxSt.addTree noCbs [1, 2]).1.addTree noCbs [1, 2]).2 = .err .badState ∧
    (unitBoxSt.addTree noCbs [1, 2, 3]).2 = .err .tooMuchData ∧
    (BoxSt.addTree noCbs ⟨(boxInit 12345 256 3 1 1 []).1, [], ()⟩ (List.replicate 255 0)).2 = .more ∧
    (BoxSt.addTree noCbs ⟨(boxInit 12345 256 3 1 1 []).1, [], ()⟩ (List.replicate 255 0)).1.c.state =
      .initialized := by
  decide +kernel

example : (unitBoxSt.addFeeTree noCbs).2 = .ok ∧
    (unitBoxSt.addFeeTree noCbs).1.h = [0xb9, 0x60] ++ minersFeeTree ++ [0x03, 0x02] ∧
    (unitBoxSt.addFeeTree noCbs).1.c.type = .fee ∧
    (unitBoxSt.addFeeTree noCbs).1.c.state = .treeAdded ∧
    (unitBoxSt.addChangeTree noCbs unitKey).2 = .ok ∧
    (unitBoxSt.addChangeTree noCbs unitKey).1.h =
      [0xb9, 0x60] ++ treeGenerateP2pk unitKey ++ [0x03, 0x02] ∧
    (unitBoxSt.addChangeTree noCbs unitKey).1.c.type = .change ∧
    ((unitBoxSt.addTree noCbs [1, 2]).1.addChangeTree noCbs unitKey).2 = .err .badState := by
  decide +kernel

/-- `tokens_array`. -/
def unitBoxTokens : Bytes :=
  [0, 0, 0, 0, 1, 1, 1, 1, 1, 1, 1, 1, 0, 0, 0, 1, 2, 2, 2, 2, 2, 2, 2, 2]

/-- The box with its tree and its tokens. -/
def unitBoxSt2 : BoxSt Unit × Res BoxErr :=
  (unitBoxSt.addTree noCbs [1, 2]).1.addTokens noCbs (some (2, [same 1, same 2])) unitBoxTokens

example : unitBoxSt2.2 = .ok ∧
    unitBoxSt2.1.h = [0xb9, 0x60, 0x01, 0x02, 0x03, 0x02, 0x00, 0x81, 0x82,
      0x84, 0x88, 0x90, 0xa0, 0xc0, 0x80, 0x01, 0x01, 0x82,
      0x84, 0x88, 0x90, 0xa0, 0xc0, 0x80, 0x81, 0x02] ∧
    unitBoxSt2.1.c.state = .tokensAdded ∧
    (unitBoxSt2.1.addRegisters noCbs [1, 2]).2 = .ok ∧
    (unitBoxSt2.1.addRegisters noCbs [1, 2]).1.h = unitBoxSt2.1.h ++ [1, 2] ∧
    (unitBoxSt2.1.addRegisters noCbs [1, 2]).1.c.state = .finished := by
  decide +kernel

/-- The id of the box, with the real hash. -/
example : (match ((unitBoxSt2.1.addRegisters noCbs [1, 2]).1.idHash unitEnv (same 1) 1).2 with
    | .ok id => id
    | .error _ => []) = unitBox := by
  decide +kernel

example : ((unitBoxSt2.1.addRegisters noCbs [1, 2]).1.idHash unitEnv (same 1) 1).1.h =
      unitBoxSt2.1.h ++ [1, 2] ++ same 1 ++ [1] ∧
    ((unitBoxSt2.1.addRegisters noCbs [1, 2]).1.idHash unitEnv (same 1) 1).1.c.state =
      .hashFinalized := by
  decide +kernel

/-! ### test_full_tx.c -/

/-- Calls one after the other, as long as each one gives `OK`. -/
def chain (x : FullSt × Res FullErr) : List (FullSt → FullSt × Res FullErr) → FullSt × Res FullErr
  | [] => x
  | f :: fs => match x.2 with
    | .ok => chain (f x.1) fs
    | _ => x

/-- `ergo_tx_serializer_full_init`.  The tests set no callbacks; here there are those of the signing
operation, on amounts that allow everything and an output that `fresh` replaces for every box. -/
def unitFull (inputs dataInputs outputs : UInt16) (tokens : UInt8) : FullSt × Res FullErr :=
  let r := fullInit inputs dataInputs outputs tokens [] []
  (⟨r.1, r.2.1, ⟨{ Amounts.zero with value := 5000000000 }, OutInfo.init 0⟩⟩, r.2.2)

/-- `INPUT_BOX_0_ID`. -/
def unitIn : Bytes := [238, 82, 133, 164, 30, 54, 128, 38, 156, 128, 191, 135, 211, 14, 247, 2, 157,
    100, 96, 57, 195, 93, 254, 150, 120, 97, 179, 159, 51, 3, 21, 100]

/-- `OUT_ERGO_TREE`. -/
def unitTree1 : Bytes := [0, 8, 205, 3, 32, 148, 188, 31, 195, 229, 19, 54, 42, 46, 61, 46, 184, 2, 40,
    60, 152, 188, 49, 64, 223, 248, 245, 76, 111, 64, 157, 214, 78, 174, 24, 195]

/-- `CHANGE_ERGO_TREE`. -/
def unitTree2 : Bytes := [0, 8, 205, 3, 75, 71, 194, 169, 103, 96, 203, 206, 24, 248, 71, 154, 217, 26,
    141, 60, 41, 70, 205, 41, 161, 189, 228, 178, 63, 181, 144, 195, 132, 20, 247, 125]

/-- A new output info. -/
def fresh (x : FullSt) : FullSt × Res FullErr := ({ x with s := { x.s with o := OutInfo.init 0 } }, .ok)

/-- The calls of `test_simple_send_tx`. -/
def unitSend : FullSt × Res FullErr :=
  chain (unitFull 1 0 3 0) [(·.addInput unitIn 1 0), (·.addInputTokens unitIn 0 []),
    fresh, (·.addBox 1000000 36 201644 0 0), (·.addBoxTree unitEnv unitTree1),
    fresh, (·.addBox 1100000 0 201644 0 0), (·.addBoxFee unitEnv),
    fresh, (·.addBox 4997900000 36 201644 0 0), (·.addBoxTree unitEnv unitTree2)]

/-- The calls of `ERGO_TX_SERIALIZER_FULL_ADD_BOX` and after it, without the first two. -/
def unitMore : List (FullSt → FullSt × Res FullErr) :=
  [(·.addTokens (same 2)), (·.addInput (same 3) 1 2),
    (·.addInputTokens (same 3) 0 (same 4 ++ [1, 2, 3, 4, 5, 6, 7, 8])), (·.addInputExtension [1, 2]),
    (·.addDataInputs (same 5)), (·.addBox 12345 1 1 1 1)]

/-- Tree, tokens and registers. -/
def unitLast : List (FullSt → FullSt × Res FullErr) :=
  [(·.addBoxTree unitEnv [1]), (·.addBoxTokens unitEnv [0, 0, 0, 0, 1, 1, 1, 1, 1, 1, 1, 1]),
    (·.addBoxRegisters unitEnv [1])]

example : (unitFull 1 0 1 1).2 = .ok ∧ (unitFull 1 0 1 1).1.h = [1] ∧
    (unitFull 1 0 1 1).1.c.state = .tokensStarted ∧ (unitFull 1 0 1 0).2 = .ok ∧
    (unitFull 1 0 1 0).1.h = [1] ∧ (unitFull 1 0 1 0).1.c.state = .inputsStarted := by
  decide +kernel


/-- The transaction id, with the real hash. -/
example : unitSend.2 = .ok ∧ unitSend.1.c.state = .finished ∧
    unitEnv.blake unitSend.1.h = [226, 208, 74, 222, 136, 14, 240, 75, 238, 220, 106, 197, 112, 64, 200, 53,
      199, 24, 109, 141, 65, 120, 1, 88, 213, 179, 190, 86, 69, 86, 74, 93] := by
  decide +kernel

example : (chain (unitFull 1 1 1 1) unitMore).2 = .ok ∧
    (chain (chain (unitFull 1 1 1 1) unitMore) [(·.addBoxChange unitEnv unitKey)]).2 = .ok ∧
    (chain (chain (unitFull 1 1 1 1) unitMore) [(·.addBoxFee unitEnv)]).2 = .ok ∧
    (chain (chain (unitFull 1 1 1 1) unitMore) (unitLast.take 1)).2 = .ok ∧
    (chain (chain (unitFull 1 1 1 1) unitMore) unitLast).2 = .ok := by
  decide +kernel

end Ergo.Vectors
