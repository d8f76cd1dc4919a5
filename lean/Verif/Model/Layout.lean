import Verif.Model.Bip32
/-!
# The union in the signing context as memory, src/commands/signtx/operations/stx_op_p2pk.h:30-48

In C the approval question of a signing request, the transaction, and the final question use the same
bytes.  `Model/P2pk` has a sum type instead, and takes `last_approved_change` as cleared when a transaction
starts although the member is not written then.  Here are sizes and offsets of the members, for every
choice of pointer size, size of enumerations, alignment of 64-bit numbers, and size of the hash context
of the SDK; and the accesses to the union.
-/
namespace Ergo

/-- What the C compiler and the SDK choose. -/
structure Abi where
  ptr : Nat
  enum : Nat
  align64 : Nat
  hash : Nat
  hashAlign : Nat
  deriving DecidableEq, Repr

/-- Size and alignment of a type. -/
structure Lay where
  size : Nat
  align : Nat
  deriving DecidableEq, Repr

/-- The next multiple of `a`. -/
def alignUp (n a : Nat) : Nat := (n + a - 1) / a * a

/-- Offsets of the members of a structure, from `o` on. -/
def offsetsFrom : Nat → List Lay → List Nat
  | _, [] => []
  | o, l :: ls => alignUp o l.align :: offsetsFrom (alignUp o l.align + l.size) ls

/-- End of the last member. -/
def endFrom : Nat → List Lay → Nat
  | o, [] => o
  | o, l :: ls => endFrom (alignUp o l.align + l.size) ls

/-- Strictest alignment. -/
def maxAlign : List Lay → Nat
  | [] => 1
  | l :: ls => max l.align (maxAlign ls)

/-- Largest size. -/
def maxSize : List Lay → Nat
  | [] => 0
  | l :: ls => max l.size (maxSize ls)

def Lay.struct (ls : List Lay) : Lay := ⟨alignUp (endFrom 0 ls) (maxAlign ls), maxAlign ls⟩
def Lay.union (ls : List Lay) : Lay := ⟨alignUp (maxSize ls) (maxAlign ls), maxAlign ls⟩
def Lay.arr (n : Nat) (l : Lay) : Lay := ⟨n * l.size, l.align⟩
def Lay.u8 : Lay := ⟨1, 1⟩
def Lay.u16 : Lay := ⟨2, 2⟩
def Lay.u32 : Lay := ⟨4, 4⟩
def Abi.u64 (a : Abi) : Lay := ⟨8, a.align64⟩
def Abi.pointer (a : Abi) : Lay := ⟨a.ptr, a.ptr⟩
def Abi.enumL (a : Abi) : Lay := ⟨a.enum, a.enum⟩
def Abi.hashL (a : Abi) : Lay := ⟨a.hash, a.hashAlign⟩

/-- `sign_transaction_bip32_path_t`, stx_output.h:13-16. -/
def pathL : Lay := .struct [.u8, .arr 10 .u32]

/-- `ergo_tx_serializer_table_context_t`, tx_ser_table.h:27-30. -/
def Abi.tableL (a : Abi) : Lay := .struct [a.pointer, .u8]

/-- `ergo_tx_serializer_box_context_t`, tx_ser_box.h:52-69. -/
def Abi.boxL (a : Abi) : Lay :=
  .struct [.struct [a.pointer, a.pointer, a.pointer, a.pointer], a.u64, .u32, .u32, .u32, .u8, a.enumL,
    a.enumL, a.pointer]

/-- `ergo_tx_serializer_input_context_t`, tx_ser_input.h:42-52. -/
def Abi.inputL (a : Abi) : Lay :=
  .struct [a.enumL, .arr 32 .u8, .u8, .u8, .u32, a.pointer, a.pointer, a.pointer, a.pointer]

/-- `ergo_tx_serializer_full_context_t`, tx_ser_full.h:49-60. -/
def Abi.fullL (a : Abi) : Lay :=
  .struct [a.enumL, .u16, .u16, .u16, a.pointer, a.tableL, .union [a.boxL, a.inputL]]

/-- Members of `sign_transaction_output_info_ctx_t`, stx_output.h:27-38. -/
def Abi.outFields (a : Abi) : List Lay :=
  [a.u64, .arr 20 a.u64, .u8, .union [a.hashL, .arr 33 .u8, .arr 32 .u8, pathL], a.pointer]

/-- `sign_transaction_ui_output_confirm_ctx_t`, stx_types.h:43-49. -/
def Abi.outUiL (a : Abi) : Lay := .struct [.arr 20 .u8, .arr 70 .u8, .u8, a.pointer, a.pointer]

/-- Members of `sign_transaction_operation_p2pk_ui_output_info_ctx_t`, stx_op_p2pk.h:15-18. -/
def Abi.uiFields (a : Abi) : List Lay := [.struct a.outFields, a.outUiL]

/-- Members of `sign_transaction_operation_p2pk_transaction_ctx_t`, stx_op_p2pk.h:30-34. -/
def Abi.txFields (a : Abi) : List Lay := [a.fullL, .struct a.uiFields, pathL]

/-- `sign_transaction_operation_p2pk_ui_approve_data_ctx_t`, stx_op_p2pk.h:10-13, stx_types.h:36-41. -/
def Abi.approveL (a : Abi) : Lay :=
  .struct [.struct [.u32, .arr 11 .u8, .u8, a.pointer], .arr 60 .u8]

/-- `sign_transaction_ui_sign_confirm_ctx_t`, stx_types.h:57-65. -/
def Abi.confirmL (a : Abi) : Lay :=
  .struct [.arr 20 .u8, .arr 70 .u8, .u8, a.pointer, a.pointer, a.pointer, a.pointer]

/-- Offset of a member. -/
def offsetOf (ls : List Lay) (i : Nat) : Nat := (offsetsFrom 0 ls).getD i 0

/-- `transaction.ui`. -/
def Abi.uiAt (a : Abi) : Nat := offsetOf a.txFields 1

/-- `transaction.ui.ui`. -/
def Abi.outUiAt (a : Abi) : Nat := a.uiAt + offsetOf a.uiFields 1

/-- `transaction.ui.output.bip32_path`. -/
def Abi.outPathAt (a : Abi) : Nat := a.uiAt + offsetOf a.uiFields 0 + offsetOf a.outFields 3

/-- `transaction.last_approved_change`. -/
def Abi.lastAt (a : Abi) : Nat := offsetOf a.txFields 2

/-- `path` in `sign_transaction_bip32_path_t`. -/
def pathAt : Nat := offsetOf [Lay.u8, .arr 10 .u32] 1

/-- Bytes of the union, from its start. -/
abbrev UMem := Nat → UInt8

/-- Write bytes at an offset. -/
def UMem.write (m : UMem) (o : Nat) (bs : Bytes) : UMem :=
  fun x => if o ≤ x ∧ x < o + bs.length then bs.getD (x - o) 0 else m x

/-- One access to the union. -/
inductive Access where
  /-- `app_set_current_command`, context.c:22-26 -/
  | wipe
  /-- a write to `ui_approve`, at an offset in it -/
  | approve (o : Nat) (bs : Bytes)
  /-- a write to `ui_confirm` -/
  | confirm (o : Nat) (bs : Bytes)
  /-- a write to `transaction.tx` -/
  | serializer (o : Nat) (bs : Bytes)
  /-- a write to `transaction.ui.output` -/
  | output (o : Nat) (bs : Bytes)
  /-- a write to `transaction.ui.ui` -/
  | outputUi (o : Nat) (bs : Bytes)
  /-- `read_bip32_path` and `stx_output_info_set_bip32`, stx_handler.c:239-242, stx_output.c:44-45 -/
  | setPath (p : List UInt32)
  /-- `memset` and `explicit_bzero` of `last_approved_change`, stx_ui.c:225,251 -/
  | clear
  /-- `memmove` to `last_approved_change`, stx_ui.c:230-232 -/
  | store

/-- The access is within the bounds of the member. -/
def Access.inside (a : Abi) : Access → Prop
  | .approve o bs => o + bs.length ≤ a.approveL.size
  | .confirm o bs => o + bs.length ≤ a.confirmL.size
  | .serializer o bs => o + bs.length ≤ a.fullL.size
  | .output o bs => o + bs.length ≤ (Lay.struct a.outFields).size
  | .outputUi o bs => o + bs.length ≤ a.outUiL.size
  | .setPath p => p.length ≤ 10
  | _ => True

/-- Effect on the bytes. -/
def Access.run (a : Abi) (m : UMem) : Access → UMem
  | .wipe => fun _ => 0
  | .approve o bs => m.write o bs
  | .confirm o bs => m.write o bs
  | .serializer o bs => m.write o bs
  | .output o bs => m.write (a.uiAt + o) bs
  | .outputUi o bs => m.write (a.outUiAt + o) bs
  | .setPath p =>
    (m.write a.outPathAt [UInt8.ofNat p.length]).write (a.outPathAt + pathAt) (pathMem p)
  | .clear => m.write a.lastAt (List.replicate pathL.size 0)
  | .store => m.write a.lastAt ((List.range pathL.size).map (fun i => m (a.outPathAt + i)))

/-- `stx_bip32_path_is_equal(&output.bip32_path, &last_approved_change)`, stx_output.h:87-90,
bip32_ext.h:24-30: `memcmp` of `len` bytes. -/
def Abi.sameAsLast (a : Abi) (m : UMem) : Bool :=
  m a.outPathAt = m a.lastAt ∧
    (List.range (m a.outPathAt).toNat).map (fun i => m (a.outPathAt + pathAt + i)) =
      (List.range (m a.outPathAt).toNat).map (fun i => m (a.lastAt + pathAt + i))

end Ergo
