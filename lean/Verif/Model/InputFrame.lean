import Verif.Model.Table
/-!
# Attested input frames, src/helpers/input_frame.{h,c},
src/commands/attestinput/ainpt_response.c
-/
namespace Ergo

/-- `input_frame_data_length`, input_frame.c:4-14 (0: not enough data); `uint8_t` arithmetic. -/
def frameDataLen (d : Bytes) : UInt8 :=
  if d.length < 59 then 0
  else
    let len : UInt8 := d.getD 42 0 * 40 + 43
    if d.length < len.toNat + 16 then 0 else len

/-- The fields of a frame, as read in `handle_input_frame`, stx_handler.c:142-165. -/
structure Frame where
  boxId : Bytes
  count : UInt8
  index : UInt8
  value : UInt64
  tokens : Bytes
  ext : Option UInt32
  deriving DecidableEq, Repr

/-- Reading of a frame, stx_handler.c:142-165 (all failures give `SW_NOT_ENOUGH_DATA`).
The extension length is read only for frame 0. -/
def frameParse (d : Bytes) : Option Frame :=
  match bufBytes idLen d with
  | none => none
  | some (boxId, d) =>
    match bufU8 d with
    | none => none
    | some (count, d) =>
      match bufU8 d with
      | none => none
      | some (index, d) =>
        match bufU64 d with
        | none => none
        | some (value, d) =>
          match bufU8 d with
          | none => none
          | some (n, d) =>
            let len : UInt8 := n * 40
            if d.length < len.toNat + 16 then none
            else
              let tokens := d.take len.toNat
              if index = 0 then
                match bufU32 (d.drop (len.toNat + 16)) with
                | none => none
                | some (ext, _) => some ⟨boxId, count, index, value, tokens, some ext⟩
              else some ⟨boxId, count, index, value, tokens, none⟩

/-- `get_frames_count`, ainpt_response.c:11-14. -/
def framesCount (tokens : Nat) : Nat :=
  let n := (tokens + 3) / 4
  if n = 0 then 1 else n

/-- Unsigned part of frame `index`, `send_response_attested_input_frame`, ainpt_response.c:33-46. -/
def frameBody (boxId : Bytes) (value : UInt64) (tokens : List (Bytes × UInt64)) (index : UInt8) :
    Bytes :=
  let part := (tokens.drop (index.toNat * 4)).take 4
  boxId ++ [UInt8.ofNat (framesCount tokens.length), index] ++ writeU64be value ++
    [UInt8.ofNat part.length] ++ part.flatMap (fun t => t.1 ++ writeU64be t.2)

end Ergo
