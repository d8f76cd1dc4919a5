import Verif.Spec.Forge
import Verif.Model.Schnorr
import Mathlib.Data.Fintype.Pi
import Mathlib.Data.Set.Finite.List
import Mathlib.Data.Rat.Defs
/-!
# Forging any frame

The tags of all bodies of a finite set are unknown: the authentication function is drawn at random.
-/
namespace Ergo.Spec

/-- There are `2^128` tags. -/
abbrev Tag : Type := Fin (2 ^ 128)

/-- The 16 bytes of a tag. -/
def tagBytes (v : Tag) : Bytes := beBytes 16 v.val

/-- The world in which the tags of the bodies in `B` under `key` are given by `f`. -/
def withTags (env : Env) (key : Bytes) {B : Finset Bytes} (f : B → Tag) : Env :=
  { env with hmac := fun k b =>
      if h : b ∈ B then if k = key then tagBytes (f ⟨b, h⟩) ++ (env.hmac k b).drop 16 else env.hmac k b
      else env.hmac k b }

/-- A frame is presented for signing. -/
def isFrame (o : Obs) : Bool :=
  match o.event with
  | .apdu _ ins p1 _ _ _ => ins = 0x21 ∧ p1 = 0x12
  | _ => false

/-- How many frames were presented. -/
def framesIn (tr : List Obs) : Nat := (tr.filter isFrame).length

theorem byte_finite : Finite UInt8 :=
  Finite.of_injective UInt8.toFin fun _ _ h => UInt8.toFin_inj.1 h

/-- All bodies that fit into a command. -/
noncomputable def allBodies : Finset Bytes := (@List.finite_length_le UInt8 byte_finite 255).toFinset

/-- The probability of an event when the tags of all bodies are drawn independently and uniformly. -/
noncomputable def chance (P : (allBodies → Tag) → Prop) : ℚ :=
  ({f | P f}.ncard : ℚ) / (Nat.card (allBodies → Tag) : ℚ)

end Ergo.Spec
