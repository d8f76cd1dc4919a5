import Verif.Model.Run
/-!
# Two worlds with different secrets
-/
namespace Ergo.Spec

/-- Two devices with different private keys but the same public keys (and the same hash functions,
name and version). -/
structure SamePublic (env env' : Env) : Prop where
  blake : env'.blake = env.blake
  hmac : env'.hmac = env.hmac
  name : env'.appName = env.appName
  version : env'.appVersion = env.appVersion
  pub : ∀ path, env'.genPublic path = env.genPublic path

/-- Is the ephemeral key of a signature with the key of `path` found in these random values? -/
def nonceFound (env : Env) (rnd : Rnd) (path : List UInt32) : Bool :=
  match env.genPrivate path with
  | none => false
  | some secret => (schnorrInit env secret rnd.keys).isSome

/-- The same event, with different random values for the ephemeral key; either both worlds find an
ephemeral key in them, or none. -/
inductive SameEvent (env env' : Env) : Event → Event → Prop
  | apdu {cla ins p1 p2 data u8s keys keys'}
      (h : ∀ path : List UInt32, path.length ≤ 10 → nonceFound env ⟨u8s, keys⟩ path = nonceFound env' ⟨u8s, keys'⟩ path) :
    SameEvent env env' (.apdu cla ins p1 p2 data ⟨u8s, keys⟩) (.apdu cla ins p1 p2 data ⟨u8s, keys'⟩)
  | left : SameEvent env env' .left .left
  | right : SameEvent env env' .right .right
  | both : SameEvent env env' .both .both

/-- The same observation, except that the reply may differ when the user approves the signature. -/
def SameObs (o o' : Obs) : Prop :=
  o'.asked = o.asked ∧ o'.here = o.here ∧
    (o'.reply = o.reply ∨ o.asked = some .approveSigning ∧ o.here = some .approve ∧ o.event = .both ∧
      (∃ sw out, o.reply = .sw sw out) ∧ ∃ sw out, o'.reply = .sw sw out)

end Ergo.Spec
