import Verif.Spec.Authentic
/-!
# Two worlds with different authentication keys and functions
-/
namespace Ergo.Spec

/-- Two devices that differ at most in the authentication function. -/
structure SameButMac (env env' : Env) : Prop where
  blake : env'.blake = env.blake
  derive : env'.derive = env.derive
  pubOf : env'.pubOf = env.pubOf
  mulG : env'.mulG = env.mulG
  name : env'.appName = env.appName
  version : env'.appVersion = env.appVersion

/-- Position of the tag in the data of a frame command (a one-byte number on the device). -/
def tagAt (data : Bytes) : Nat := (43 + 40 * field data 42 1) % 256

/-- The 16 bytes found there are the tag of everything before. -/
def TagOk (env : Env) (key data : Bytes) : Prop :=
  (data.drop (tagAt data)).take 16 = (env.hmac key (data.take (tagAt data))).take 16

/-- The same frame in two worlds: the tag may differ, but is correct in both worlds or in none. -/
inductive SameFrame (env : Env) (key : Bytes) (env' : Env) (key' : Bytes) : Bytes → Bytes → Prop
  | same {data} (h : TagOk env key data ↔ TagOk env' key' data) : SameFrame env key env' key' data data
  | retag {body tag tag' rest} (hb : body.length = 43 + 40 * field body 42 1) (ht : tag.length = 16)
      (ht' : tag'.length = 16)
      (h : TagOk env key (body ++ tag ++ rest) ↔ TagOk env' key' (body ++ tag' ++ rest)) :
    SameFrame env key env' key' (body ++ tag ++ rest) (body ++ tag' ++ rest)

/-- The same event in two worlds: only the tags of presented frames may differ. -/
inductive SameButTag (env : Env) (key : Bytes) (env' : Env) (key' : Bytes) : Event → Event → Prop
  | other {cla ins p1 p2 data rnd} (h : ¬ (ins = 0x21 ∧ p1 = 0x12)) :
    SameButTag env key env' key' (.apdu cla ins p1 p2 data rnd) (.apdu cla ins p1 p2 data rnd)
  | frame {cla p2 data data' rnd} (h : SameFrame env key env' key' data data') :
    SameButTag env key env' key' (.apdu cla 0x21 0x12 p2 data rnd) (.apdu cla 0x21 0x12 p2 data' rnd)
  | left : SameButTag env key env' key' .left .left
  | right : SameButTag env key env' key' .right .right
  | both : SameButTag env key env' key' .both .both

/-- The same observation, except that a released frame carries the tag of its own world. -/
def SameObsButTag (env : Env) (key : Bytes) (env' : Env) (key' : Bytes) (o o' : Obs) : Prop :=
  o'.asked = o.asked ∧ o'.here = o.here ∧
    (o'.reply = o.reply ∨ (∃ cla p2 data rnd, o.event = .apdu cla 0x20 0x05 p2 data rnd) ∧
      ∃ body, o.reply = .sw 0x9000 (body ++ (env.hmac key body).take 16) ∧
        o'.reply = .sw 0x9000 (body ++ (env'.hmac key' body).take 16))

end Ergo.Spec
