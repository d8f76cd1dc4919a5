import Verif.Model.Blake2b
import Verif.Model.Run
import Verif.Spec.Text
import Verif.Proof.Toy
/-!
# Tests of the repository on a device, run on the model

These are tests, not proofs: the sessions and the expected screens of `tests/*-tests.js`, evaluated by
the kernel on the definitions of the model.  They check the model, not the code.  The JavaScript client and
the wallet library are not in the repository, so the messages are written after `doc/`; the expected
transaction bytes and signatures were computed by a separate program from `tests/seed.txt`.  Variants
with an application token or for Nano S are left out where they only repeat.  Hash, keys, chain codes,
points and the signature are the real ones; the session key, the nonce, the session id and the
application token are arbitrary, and the MAC is BLAKE2b of key and data.
-/
namespace Ergo.Vectors
open Ergo.Spec

/-- Keys and chain codes of the seed. -/
def seedKeys : List (List UInt32 × Bytes × Bytes) :=
  [([2147483692, 2147484077, 2147483648], [138, 116, 37, 151, 32, 24, 11, 150, 211, 167, 142, 62, 150, 112,
      118, 33, 179, 120, 247, 97, 252, 94, 11, 77, 215, 32, 157, 40, 0, 233, 222, 154], [142, 178, 156,
      120, 151, 213, 122, 238, 55, 27, 242, 84, 190, 101, 22, 230, 150, 62, 45, 155, 55, 157, 13, 98,
      108, 23, 163, 157, 26, 59, 245, 83]),
   ([2147483692, 2147484077, 2147483648, 0, 0], [155, 40, 199, 27, 34, 77, 84, 234, 236, 107, 193, 15, 210,
      100, 71, 139, 151, 227, 131, 161, 125, 244, 0, 227, 201, 242, 119, 92, 46, 88, 101, 105], [221,
      197, 76, 75, 19, 163, 25, 142, 243, 124, 233, 107, 128, 83, 43, 61, 104, 198, 108, 90, 241, 255,
      58, 202, 86, 217, 183, 223, 115, 94, 67, 55]),
   ([2147483692, 2147484077, 2147483648, 0, 1], [151, 203, 209, 241, 39, 143, 108, 11, 55, 150, 220, 237,
      138, 118, 88, 155, 168, 7, 211, 31, 254, 186, 32, 91, 65, 44, 250, 94, 15, 79, 133, 12], [128,
      213, 159, 80, 71, 178, 223, 56, 22, 25, 84, 204, 98, 157, 167, 208, 232, 128, 217, 235, 48, 13,
      201, 201, 84, 208, 224, 127, 98, 242, 9, 39]),
   ([2147483692, 2147484077, 2147483648, 0, 2], [182, 127, 200, 215, 253, 71, 165, 78, 0, 10, 22, 242, 104,
      221, 68, 193, 214, 36, 157, 126, 242, 240, 19, 138, 183, 101, 218, 27, 163, 67, 130, 48], [136,
      208, 100, 65, 185, 146, 255, 45, 140, 111, 183, 109, 247, 221, 133, 62, 127, 80, 29, 135, 36, 8,
      164, 243, 218, 237, 95, 128, 56, 91, 200, 15]),
   ([2147483692, 2147484077, 2147483648, 0, 22], [124, 159, 235, 236, 180, 11, 220, 221, 201, 197, 8, 223,
      155, 228, 84, 155, 165, 11, 223, 113, 3, 163, 31, 252, 82, 25, 207, 82, 71, 6, 32, 100], [0, 73,
      32, 182, 64, 68, 198, 87, 46, 101, 61, 212, 88, 199, 128, 67, 26, 26, 200, 4, 166, 99, 134, 245,
      132, 231, 172, 145, 27, 94, 216, 142])]

/-- Points of the private keys and of the nonce. -/
def seedPoints : List (Bytes × Bytes) :=
  [([138, 116, 37, 151, 32, 24, 11, 150, 211, 167, 142, 62, 150, 112, 118, 33, 179, 120, 247, 97, 252, 94,
      11, 77, 215, 32, 157, 40, 0, 233, 222, 154], [4, 194, 78, 85, 0, 139, 82, 60, 202, 240, 59, 108,
      117, 127, 136, 196, 136, 30, 243, 51, 26, 37, 91, 118, 210, 224, 120, 1, 108, 105, 195, 223, 212,
      190, 206, 44, 254, 198, 63, 208, 43, 103, 96, 13, 144, 216, 33, 180, 150, 70, 254, 137, 130, 67,
      174, 65, 98, 47, 177, 39, 205, 245, 14, 245, 93]),
   ([155, 40, 199, 27, 34, 77, 84, 234, 236, 107, 193, 15, 210, 100, 71, 139, 151, 227, 131, 161, 125, 244,
      0, 227, 201, 242, 119, 92, 46, 88, 101, 105], [4, 48, 136, 228, 87, 178, 204, 210, 210, 110, 76,
      93, 248, 191, 60, 12, 51, 40, 7, 237, 122, 158, 176, 42, 75, 113, 175, 251, 87, 111, 177, 66, 16,
      73, 87, 99, 183, 106, 93, 7, 187, 101, 97, 136, 115, 64, 8, 85, 255, 51, 97, 169, 202, 213, 235,
      100, 90, 117, 28, 133, 43, 130, 45, 119, 13]),
   ([151, 203, 209, 241, 39, 143, 108, 11, 55, 150, 220, 237, 138, 118, 88, 155, 168, 7, 211, 31, 254, 186,
      32, 91, 65, 44, 250, 94, 15, 79, 133, 12], [4, 244, 76, 156, 163, 191, 223, 134, 114, 35, 123,
      142, 33, 44, 220, 56, 68, 78, 218, 158, 37, 195, 161, 227, 75, 135, 91, 118, 205, 21, 185, 146,
      164, 220, 214, 75, 126, 72, 86, 24, 110, 6, 99, 138, 21, 28, 109, 57, 111, 235, 56, 20, 84, 192,
      12, 185, 53, 91, 25, 83, 28, 234, 81, 197, 219]),
   ([182, 127, 200, 215, 253, 71, 165, 78, 0, 10, 22, 242, 104, 221, 68, 193, 214, 36, 157, 126, 242, 240,
      19, 138, 183, 101, 218, 27, 163, 67, 130, 48], [4, 36, 126, 87, 236, 187, 37, 162, 41, 86, 0, 26,
      45, 102, 209, 207, 6, 222, 149, 12, 17, 91, 199, 135, 215, 62, 32, 153, 246, 43, 143, 190, 194,
      179, 60, 89, 97, 133, 42, 206, 229, 251, 91, 207, 26, 61, 237, 68, 115, 206, 34, 33, 72, 193, 65,
      206, 245, 170, 185, 237, 19, 137, 133, 7, 114]),
   ([124, 159, 235, 236, 180, 11, 220, 221, 201, 197, 8, 223, 155, 228, 84, 155, 165, 11, 223, 113, 3, 163,
      31, 252, 82, 25, 207, 82, 71, 6, 32, 100], [4, 119, 105, 119, 231, 122, 175, 140, 17, 154, 136,
      184, 148, 116, 55, 21, 43, 217, 135, 78, 112, 227, 213, 212, 16, 87, 6, 60, 229, 10, 63, 189, 67,
      65, 205, 89, 38, 216, 234, 15, 181, 10, 56, 219, 74, 110, 76, 84, 237, 137, 139, 149, 194, 41,
      238, 244, 141, 158, 70, 250, 40, 13, 70, 158, 136]),
   ([120, 55, 123, 82, 87, 87, 180, 148, 66, 127, 137, 1, 79, 151, 215, 153, 40, 243, 147, 141, 20, 235,
      81, 226, 15, 181, 222, 201, 131, 78, 179, 4], [4, 23, 245, 50, 137, 234, 201, 97, 229, 173, 200,
      88, 211, 202, 80, 218, 176, 86, 221, 202, 122, 26, 144, 108, 8, 21, 160, 54, 147, 18, 209, 170,
      73, 118, 104, 19, 40, 222, 29, 64, 182, 240, 124, 205, 104, 90, 34, 164, 249, 153, 185, 28, 128,
      235, 97, 14, 77, 175, 228, 16, 189, 58, 209, 96, 6])]

/-- Nonce, session id. -/
def testRnd : Rnd := ⟨[7], fun _ => [120, 55, 123, 82, 87, 87, 180, 148, 66,
    127, 137, 1, 79, 151, 215, 153, 40, 243, 147, 141, 20, 235, 81, 226, 15, 181, 222, 201, 131, 78,
    179, 4]⟩

/-- Session key. -/
def testKey : Bytes := [133, 237, 177, 149, 185, 146, 243, 153, 193, 239, 187, 33,
    185, 83, 2, 193, 84, 236, 233, 161, 19, 198, 84, 151, 52, 126, 18, 247, 40, 220, 134, 157]

/-- Services of the tests. -/
def testEnv : Env where
  blake d := (Blake2b.hash 32 d).getD []
  hmac k d := (Blake2b.hash 32 (k ++ d)).getD []
  derive p := (seedKeys.lookup p)
  pubOf k := seedPoints.lookup k
  mulG k := seedPoints.lookup k
  appName := []
  appVersion := []

/-- Header and body of the screen on display, as the tests read it (helpers/screen.js). -/
def screenText (nanoS : Bool) (d : Device) : List Char × List Char :=
  match d.here with
  | some .approve => ([], "Approve".toList)
  | some .reject => ([], "Reject".toList)
  | _ =>
    match d.page testEnv nanoS with
    | some ⟨t, .nothing⟩ => ([], titleText t)
    | some ⟨t, s⟩ => (titleText t, shownText s)
    | none => ([], [])

/-- `readFlow`, helpers/screen.js: to the right until the first screen appears again. -/
def readFlow (nanoS : Bool) (first : List Char × List Char) : Nat → Device →
    List (List Char × List Char) × Device
  | 0, d => ([], d)
  | n + 1, d =>
    let d' := (d.step testEnv nanoS .right).1
    if screenText nanoS d' = first then ([], d')
    else
      let r := readFlow nanoS first n d'
      (screenText nanoS d' :: r.1, r.2)

/-- `clickOn('Approve')`, helpers/screen.js. -/
def clickApprove (nanoS : Bool) : Nat → Device → Device × Reply
  | 0, d => (d, .ub)
  | n + 1, d =>
    let d' := (d.step testEnv nanoS .right).1
    if d'.here = some .approve then d'.step testEnv nanoS .both else clickApprove nanoS n d'

/-- A message with its reply (`wait`: a flow is shown), or a flow with its screens and the reply to its
approval. -/
inductive TestStep where
  | send (ins p1 p2 : UInt8) (data : Bytes) (reply : Reply)
  | flow (pages : List (String × String)) (reply : Reply)

/-- The session goes as expected. -/
def passes (nanoS : Bool) : Device → List TestStep → Bool
  | _, [] => true
  | d, .send ins p1 p2 data reply :: rest =>
    let r := d.step testEnv nanoS (.apdu 0xE0 ins p1 p2 data testRnd)
    r.2 = reply && d.screen.isNone && passes nanoS r.1 rest
  | d, .flow pages reply :: rest =>
    let f := readFlow nanoS (screenText nanoS d) 20 d
    let r := clickApprove nanoS 20 f.2
    screenText nanoS d :: f.1 = pages.map (fun p => (p.1.toList, p.2.toList)) && r.2 = reply &&
      passes nanoS r.1 rest

/-! ### can derive address -/

example : passes false (.boot testKey)
    [.send 0x11 0x01 1 [0, 5, 128, 0, 0, 44, 128, 0, 1, 173, 128, 0, 0, 0, 0, 0, 0, 0, 0, 0, 0, 0] .wait,
     .flow [("", "Confirm Send Address"), ("Path", "44'/429'/0'/0/0"), ("", "Approve"), ("", "Reject")] (.sw
      0x9000 [1, 3, 48, 136, 228, 87, 178, 204, 210, 210, 110, 76, 93, 248, 191, 60, 12, 51, 40, 7, 237,
      122, 158, 176, 42, 75, 113, 175, 251, 87, 111, 177, 66, 16, 107, 168, 220, 65])] = true := by
  decide +kernel

/-! ### can show address -/

example : passes false (.boot testKey)
    [.send 0x11 0x02 1 [0, 5, 128, 0, 0, 44, 128, 0, 1, 173, 128, 0, 0, 0, 0, 0, 0, 0, 0, 0, 0, 0] .wait,
     .flow [("", "Confirm Address"), ("Path", "44'/429'/0'/0/0"), ("Address",
      "9gqBSpseifxnkjRLZUxs5wbJGsvYPG7MLRcBgnKEzFiJoMJaakg"), ("", "Approve"), ("", "Reject")] (.sw
      0x9000 [])] = true := by
  decide +kernel

/-! ### can get extended public key -/

example : passes false (.boot testKey)
    [.send 0x10 0x01 0 [3, 128, 0, 0, 44, 128, 0, 1, 173, 128, 0, 0, 0] .wait,
     .flow [("", "Ext PubKey Export"), ("Path", "44'/429'/0'"), ("", "Approve"), ("", "Reject")] (.sw 0x9000
      [3, 194, 78, 85, 0, 139, 82, 60, 202, 240, 59, 108, 117, 127, 136, 196, 136, 30, 243, 51, 26, 37,
      91, 118, 210, 224, 120, 1, 108, 105, 195, 223, 212, 142, 178, 156, 120, 151, 213, 122, 238, 55,
      27, 242, 84, 190, 101, 22, 230, 150, 62, 45, 155, 55, 157, 13, 98, 108, 23, 163, 157, 26, 59, 245,
      83])] = true := by
  decide +kernel

/-! ### can attest input -/

example : passes false (.boot testKey)
    [.send 0x20 0x01 1 [0, 0, 0, 0, 0, 0, 0, 0, 0, 0, 0, 0, 0, 0, 0, 0, 0, 0, 0, 0, 0, 0, 0, 0, 0, 0, 0, 0,
      0, 0, 0, 0, 0, 0, 0, 0, 0, 0, 59, 154, 202, 0, 0, 0, 0, 36, 0, 0, 0, 0, 0, 0, 0, 0, 0] .wait,
     .flow [("", "Confirm Attest Input"), ("", "Approve"), ("", "Reject")] (.sw 0x9000 [7]),
     .send 0x20 0x02 7 [0, 8, 205, 3, 48, 136, 228, 87, 178, 204, 210, 210, 110, 76, 93, 248, 191, 60, 12,
      51, 40, 7, 237, 122, 158, 176, 42, 75, 113, 175, 251, 87, 111, 177, 66, 16] (.sw 0x9000 [1]),
     .send 0x20 0x05 7 [0] (.sw 0x9000 [49, 157, 163, 76, 220, 177, 187, 89, 10, 187, 88, 103, 235, 13, 50,
      52, 197, 151, 202, 139, 81, 223, 2, 68, 180, 237, 191, 222, 127, 254, 3, 147, 1, 0, 0, 0, 0, 0,
      59, 154, 202, 0, 0, 249, 131, 228, 239, 241, 164, 189, 107, 62, 203, 32, 149, 223, 249, 51, 253])] = true := by
  decide +kernel

/-! ### can sign tx -/

example : passes false (.boot testKey)
    [.send 0x20 0x01 1 [0, 0, 0, 0, 0, 0, 0, 0, 0, 0, 0, 0, 0, 0, 0, 0, 0, 0, 0, 0, 0, 0, 0, 0, 0, 0, 0, 0,
      0, 0, 0, 0, 0, 0, 0, 0, 0, 0, 59, 154, 202, 0, 0, 0, 0, 36, 0, 0, 0, 0, 0, 0, 0, 0, 0] .wait,
     .flow [("", "Confirm Attest Input"), ("", "Approve"), ("", "Reject")] (.sw 0x9000 [7]),
     .send 0x20 0x02 7 [0, 8, 205, 3, 48, 136, 228, 87, 178, 204, 210, 210, 110, 76, 93, 248, 191, 60, 12,
      51, 40, 7, 237, 122, 158, 176, 42, 75, 113, 175, 251, 87, 111, 177, 66, 16] (.sw 0x9000 [1]),
     .send 0x20 0x05 7 [0] (.sw 0x9000 [49, 157, 163, 76, 220, 177, 187, 89, 10, 187, 88, 103, 235, 13, 50,
      52, 197, 151, 202, 139, 81, 223, 2, 68, 180, 237, 191, 222, 127, 254, 3, 147, 1, 0, 0, 0, 0, 0,
      59, 154, 202, 0, 0, 249, 131, 228, 239, 241, 164, 189, 107, 62, 203, 32, 149, 223, 249, 51, 253]),
     .send 0x21 0x01 1 [0, 5, 128, 0, 0, 44, 128, 0, 1, 173, 128, 0, 0, 0, 0, 0, 0, 0, 0, 0, 0, 0] .wait,
     .flow [("P2PK Signing", "44'/429'/0'/0/0"), ("Application", "0x00000000"), ("", "Approve"), ("",
      "Reject")] (.sw 0x9000 [7]),
     .send 0x21 0x10 7 [0, 1, 0, 1, 0, 0, 3] (.sw 0x9000 []),
     .send 0x21 0x12 7 [49, 157, 163, 76, 220, 177, 187, 89, 10, 187, 88, 103, 235, 13, 50, 52, 197, 151,
      202, 139, 81, 223, 2, 68, 180, 237, 191, 222, 127, 254, 3, 147, 1, 0, 0, 0, 0, 0, 59, 154, 202, 0,
      0, 249, 131, 228, 239, 241, 164, 189, 107, 62, 203, 32, 149, 223, 249, 51, 253, 0, 0, 0, 0] (.sw
      0x9000 []),
     .send 0x21 0x14 7 [58, 147, 188, 123, 59, 202, 118, 208, 209, 245, 201, 93, 28, 210, 76, 140, 184, 197,
      44, 45, 252, 118, 232, 199, 18, 183, 21, 189, 224, 245, 97, 195] (.sw 0x9000 []),
     .send 0x21 0x15 7 [0, 0, 0, 0, 5, 245, 225, 0, 0, 0, 0, 36, 0, 0, 0, 0, 0, 0, 0, 0, 0] (.sw 0x9000 []),
     .send 0x21 0x16 7 [0, 8, 205, 3, 244, 76, 156, 163, 191, 223, 134, 114, 35, 123, 142, 33, 44, 220, 56,
      68, 78, 218, 158, 37, 195, 161, 227, 75, 135, 91, 118, 205, 21, 185, 146, 164] .wait,
     .flow [("", "Confirm Output"), ("Address", "9iKPzGpzrEFFQ7kn2n6BHWU4fgTwSMF7atqPsvHAjgGvogSHz6Y"),
      ("Output Value", "0.100000000 ERG"), ("", "Approve"), ("", "Reject")] (.sw 0x9000 []),
     .send 0x21 0x15 7 [0, 0, 0, 0, 53, 149, 166, 192, 0, 0, 0, 0, 0, 0, 0, 0, 0, 0, 0, 0, 0] (.sw 0x9000 []),
     .send 0x21 0x18 7 [5, 128, 0, 0, 44, 128, 0, 1, 173, 128, 0, 0, 0, 0, 0, 0, 0, 0, 0, 0, 2] (.sw 0x9000
      []),
     .send 0x21 0x15 7 [0, 0, 0, 0, 0, 15, 66, 64, 0, 0, 0, 0, 0, 0, 0, 0, 0, 0, 0, 0, 0] (.sw 0x9000 []),
     .send 0x21 0x17 7 [] (.sw 0x9000 []),
     .send 0x21 0x20 7 [] .wait,
     .flow [("", "Approve Signing"), ("P2PK Path", "44'/429'/0'/0/0"), ("Transaction Amount",
      "0.100000000 ERG"), ("Transaction Fee", "0.001000000 ERG"), ("", "Approve"), ("", "Reject")] (.sw
      0x9000 [35, 36, 236, 29, 233, 17, 184, 158, 236, 4, 81, 143, 158, 144, 176, 92, 74, 223, 3, 238,
      196, 66, 98, 255, 205, 230, 221, 77, 209, 70, 137, 238, 211, 165, 151, 244, 165, 156, 250, 144,
      148, 162, 9, 243, 166, 77, 3, 0, 147, 26, 153, 98, 100, 56, 205, 129])] = true := by
  decide +kernel

/-! ### can sign tx change 22 -/

example : passes false (.boot testKey)
    [.send 0x20 0x01 1 [0, 0, 0, 0, 0, 0, 0, 0, 0, 0, 0, 0, 0, 0, 0, 0, 0, 0, 0, 0, 0, 0, 0, 0, 0, 0, 0, 0,
      0, 0, 0, 0, 0, 0, 0, 0, 0, 0, 59, 154, 202, 0, 0, 0, 0, 36, 0, 0, 0, 0, 0, 0, 0, 0, 1] .wait,
     .flow [("", "Confirm Attest Input"), ("", "Approve"), ("", "Reject")] (.sw 0x9000 [7]),
     .send 0x20 0x02 7 [0, 8, 205, 3, 48, 136, 228, 87, 178, 204, 210, 210, 110, 76, 93, 248, 191, 60, 12,
      51, 40, 7, 237, 122, 158, 176, 42, 75, 113, 175, 251, 87, 111, 177, 66, 16] (.sw 0x9000 []),
     .send 0x20 0x04 7 [0] (.sw 0x9000 [1]),
     .send 0x20 0x05 7 [0] (.sw 0x9000 [49, 157, 163, 76, 220, 177, 187, 89, 10, 187, 88, 103, 235, 13, 50,
      52, 197, 151, 202, 139, 81, 223, 2, 68, 180, 237, 191, 222, 127, 254, 3, 147, 1, 0, 0, 0, 0, 0,
      59, 154, 202, 0, 0, 249, 131, 228, 239, 241, 164, 189, 107, 62, 203, 32, 149, 223, 249, 51, 253]),
     .send 0x21 0x01 1 [0, 5, 128, 0, 0, 44, 128, 0, 1, 173, 128, 0, 0, 0, 0, 0, 0, 0, 0, 0, 0, 0] .wait,
     .flow [("P2PK Signing", "44'/429'/0'/0/0"), ("Application", "0x00000000"), ("", "Approve"), ("",
      "Reject")] (.sw 0x9000 [7]),
     .send 0x21 0x10 7 [0, 1, 0, 1, 0, 0, 3] (.sw 0x9000 []),
     .send 0x21 0x12 7 [49, 157, 163, 76, 220, 177, 187, 89, 10, 187, 88, 103, 235, 13, 50, 52, 197, 151,
      202, 139, 81, 223, 2, 68, 180, 237, 191, 222, 127, 254, 3, 147, 1, 0, 0, 0, 0, 0, 59, 154, 202, 0,
      0, 249, 131, 228, 239, 241, 164, 189, 107, 62, 203, 32, 149, 223, 249, 51, 253, 0, 0, 0, 0] (.sw
      0x9000 []),
     .send 0x21 0x14 7 [58, 147, 188, 123, 59, 202, 118, 208, 209, 245, 201, 93, 28, 210, 76, 140, 184, 197,
      44, 45, 252, 118, 232, 199, 18, 183, 21, 189, 224, 245, 97, 195] (.sw 0x9000 []),
     .send 0x21 0x15 7 [0, 0, 0, 0, 5, 245, 225, 0, 0, 0, 0, 36, 0, 0, 0, 0, 0, 0, 0, 0, 0] (.sw 0x9000 []),
     .send 0x21 0x16 7 [0, 8, 205, 3, 244, 76, 156, 163, 191, 223, 134, 114, 35, 123, 142, 33, 44, 220, 56,
      68, 78, 218, 158, 37, 195, 161, 227, 75, 135, 91, 118, 205, 21, 185, 146, 164] .wait,
     .flow [("", "Confirm Output"), ("Address", "9iKPzGpzrEFFQ7kn2n6BHWU4fgTwSMF7atqPsvHAjgGvogSHz6Y"),
      ("Output Value", "0.100000000 ERG"), ("", "Approve"), ("", "Reject")] (.sw 0x9000 []),
     .send 0x21 0x15 7 [0, 0, 0, 0, 53, 149, 166, 192, 0, 0, 0, 0, 0, 0, 0, 0, 0, 0, 0, 0, 0] (.sw 0x9000 []),
     .send 0x21 0x18 7 [5, 128, 0, 0, 44, 128, 0, 1, 173, 128, 0, 0, 0, 0, 0, 0, 0, 0, 0, 0, 22] .wait,
     .flow [("", "Confirm Output"), ("Change", "44'/429'/0'/0/22"), ("", "Approve"), ("", "Reject")] (.sw
      0x9000 []),
     .send 0x21 0x15 7 [0, 0, 0, 0, 0, 15, 66, 64, 0, 0, 0, 0, 0, 0, 0, 0, 0, 0, 0, 0, 0] (.sw 0x9000 []),
     .send 0x21 0x17 7 [] (.sw 0x9000 []),
     .send 0x21 0x20 7 [] .wait,
     .flow [("", "Approve Signing"), ("P2PK Path", "44'/429'/0'/0/0"), ("Transaction Amount",
      "0.100000000 ERG"), ("Transaction Fee", "0.001000000 ERG"), ("", "Approve"), ("", "Reject")] (.sw
      0x9000 [190, 10, 115, 226, 22, 218, 201, 56, 72, 174, 221, 51, 23, 190, 93, 158, 31, 140, 174,
      211, 252, 109, 137, 199, 130, 53, 16, 234, 35, 5, 138, 143, 49, 95, 190, 227, 198, 191, 252, 8,
      173, 248, 246, 39, 115, 19, 106, 35, 211, 138, 29, 132, 86, 221, 104, 207])] = true := by
  decide +kernel

/-! ### can sign tx with additional registers -/

example : passes false (.boot testKey)
    [.send 0x20 0x01 1 [0, 0, 0, 0, 0, 0, 0, 0, 0, 0, 0, 0, 0, 0, 0, 0, 0, 0, 0, 0, 0, 0, 0, 0, 0, 0, 0, 0,
      0, 0, 0, 0, 0, 0, 0, 0, 0, 0, 59, 154, 202, 0, 0, 0, 0, 36, 0, 0, 0, 0, 0, 0, 0, 0, 11] .wait,
     .flow [("", "Confirm Attest Input"), ("", "Approve"), ("", "Reject")] (.sw 0x9000 [7]),
     .send 0x20 0x02 7 [0, 8, 205, 3, 48, 136, 228, 87, 178, 204, 210, 210, 110, 76, 93, 248, 191, 60, 12,
      51, 40, 7, 237, 122, 158, 176, 42, 75, 113, 175, 251, 87, 111, 177, 66, 16] (.sw 0x9000 []),
     .send 0x20 0x04 7 [2, 4, 246, 1, 14, 5, 1, 2, 3, 4, 5] (.sw 0x9000 [1]),
     .send 0x20 0x05 7 [0] (.sw 0x9000 [239, 22, 244, 166, 219, 97, 161, 195, 26, 234, 85, 211, 191, 16, 225,
      251, 100, 67, 207, 8, 207, 244, 161, 207, 46, 58, 71, 128, 225, 49, 45, 186, 1, 0, 0, 0, 0, 0, 59,
      154, 202, 0, 0, 230, 112, 38, 75, 127, 141, 217, 214, 172, 31, 168, 113, 196, 215, 46, 215]),
     .send 0x21 0x01 1 [0, 5, 128, 0, 0, 44, 128, 0, 1, 173, 128, 0, 0, 0, 0, 0, 0, 0, 0, 0, 0, 0] .wait,
     .flow [("P2PK Signing", "44'/429'/0'/0/0"), ("Application", "0x00000000"), ("", "Approve"), ("",
      "Reject")] (.sw 0x9000 [7]),
     .send 0x21 0x10 7 [0, 1, 0, 0, 0, 0, 3] (.sw 0x9000 []),
     .send 0x21 0x12 7 [239, 22, 244, 166, 219, 97, 161, 195, 26, 234, 85, 211, 191, 16, 225, 251, 100, 67,
      207, 8, 207, 244, 161, 207, 46, 58, 71, 128, 225, 49, 45, 186, 1, 0, 0, 0, 0, 0, 59, 154, 202, 0,
      0, 230, 112, 38, 75, 127, 141, 217, 214, 172, 31, 168, 113, 196, 215, 46, 215, 0, 0, 0, 0] (.sw
      0x9000 []),
     .send 0x21 0x15 7 [0, 0, 0, 0, 5, 245, 225, 0, 0, 0, 0, 36, 0, 0, 0, 0, 0, 0, 0, 0, 0] (.sw 0x9000 []),
     .send 0x21 0x16 7 [0, 8, 205, 3, 244, 76, 156, 163, 191, 223, 134, 114, 35, 123, 142, 33, 44, 220, 56,
      68, 78, 218, 158, 37, 195, 161, 227, 75, 135, 91, 118, 205, 21, 185, 146, 164] .wait,
     .flow [("", "Confirm Output"), ("Address", "9iKPzGpzrEFFQ7kn2n6BHWU4fgTwSMF7atqPsvHAjgGvogSHz6Y"),
      ("Output Value", "0.100000000 ERG"), ("", "Approve"), ("", "Reject")] (.sw 0x9000 []),
     .send 0x21 0x15 7 [0, 0, 0, 0, 53, 149, 166, 192, 0, 0, 0, 0, 0, 0, 0, 0, 0, 0, 0, 0, 0] (.sw 0x9000 []),
     .send 0x21 0x18 7 [5, 128, 0, 0, 44, 128, 0, 1, 173, 128, 0, 0, 0, 0, 0, 0, 0, 0, 0, 0, 2] (.sw 0x9000
      []),
     .send 0x21 0x15 7 [0, 0, 0, 0, 0, 15, 66, 64, 0, 0, 0, 0, 0, 0, 0, 0, 0, 0, 0, 0, 0] (.sw 0x9000 []),
     .send 0x21 0x17 7 [] (.sw 0x9000 []),
     .send 0x21 0x20 7 [] .wait,
     .flow [("", "Approve Signing"), ("P2PK Path", "44'/429'/0'/0/0"), ("Transaction Amount",
      "0.100000000 ERG"), ("Transaction Fee", "0.001000000 ERG"), ("", "Approve"), ("", "Reject")] (.sw
      0x9000 [135, 147, 56, 98, 41, 49, 89, 74, 108, 195, 176, 234, 149, 215, 168, 5, 182, 44, 189, 228,
      242, 202, 179, 64, 179, 7, 251, 106, 245, 21, 33, 14, 47, 13, 64, 233, 162, 127, 211, 89, 251,
      237, 137, 109, 0, 242, 62, 158, 156, 165, 220, 242, 255, 200, 196, 8])] = true := by
  decide +kernel

/-! ### can sign tx with zero data inputs -/

example : passes false (.boot testKey)
    [.send 0x20 0x01 1 [0, 0, 0, 0, 0, 0, 0, 0, 0, 0, 0, 0, 0, 0, 0, 0, 0, 0, 0, 0, 0, 0, 0, 0, 0, 0, 0, 0,
      0, 0, 0, 0, 0, 0, 0, 0, 0, 0, 59, 154, 202, 0, 0, 0, 0, 36, 0, 0, 0, 0, 0, 0, 0, 0, 0] .wait,
     .flow [("", "Confirm Attest Input"), ("", "Approve"), ("", "Reject")] (.sw 0x9000 [7]),
     .send 0x20 0x02 7 [0, 8, 205, 3, 48, 136, 228, 87, 178, 204, 210, 210, 110, 76, 93, 248, 191, 60, 12,
      51, 40, 7, 237, 122, 158, 176, 42, 75, 113, 175, 251, 87, 111, 177, 66, 16] (.sw 0x9000 [1]),
     .send 0x20 0x05 7 [0] (.sw 0x9000 [49, 157, 163, 76, 220, 177, 187, 89, 10, 187, 88, 103, 235, 13, 50,
      52, 197, 151, 202, 139, 81, 223, 2, 68, 180, 237, 191, 222, 127, 254, 3, 147, 1, 0, 0, 0, 0, 0,
      59, 154, 202, 0, 0, 249, 131, 228, 239, 241, 164, 189, 107, 62, 203, 32, 149, 223, 249, 51, 253]),
     .send 0x21 0x01 1 [0, 5, 128, 0, 0, 44, 128, 0, 1, 173, 128, 0, 0, 0, 0, 0, 0, 0, 0, 0, 0, 0] .wait,
     .flow [("P2PK Signing", "44'/429'/0'/0/0"), ("Application", "0x00000000"), ("", "Approve"), ("",
      "Reject")] (.sw 0x9000 [7]),
     .send 0x21 0x10 7 [0, 1, 0, 0, 0, 0, 3] (.sw 0x9000 []),
     .send 0x21 0x12 7 [49, 157, 163, 76, 220, 177, 187, 89, 10, 187, 88, 103, 235, 13, 50, 52, 197, 151,
      202, 139, 81, 223, 2, 68, 180, 237, 191, 222, 127, 254, 3, 147, 1, 0, 0, 0, 0, 0, 59, 154, 202, 0,
      0, 249, 131, 228, 239, 241, 164, 189, 107, 62, 203, 32, 149, 223, 249, 51, 253, 0, 0, 0, 0] (.sw
      0x9000 []),
     .send 0x21 0x15 7 [0, 0, 0, 0, 5, 245, 225, 0, 0, 0, 0, 36, 0, 0, 0, 0, 0, 0, 0, 0, 0] (.sw 0x9000 []),
     .send 0x21 0x16 7 [0, 8, 205, 3, 244, 76, 156, 163, 191, 223, 134, 114, 35, 123, 142, 33, 44, 220, 56,
      68, 78, 218, 158, 37, 195, 161, 227, 75, 135, 91, 118, 205, 21, 185, 146, 164] .wait,
     .flow [("", "Confirm Output"), ("Address", "9iKPzGpzrEFFQ7kn2n6BHWU4fgTwSMF7atqPsvHAjgGvogSHz6Y"),
      ("Output Value", "0.100000000 ERG"), ("", "Approve"), ("", "Reject")] (.sw 0x9000 []),
     .send 0x21 0x15 7 [0, 0, 0, 0, 53, 149, 166, 192, 0, 0, 0, 0, 0, 0, 0, 0, 0, 0, 0, 0, 0] (.sw 0x9000 []),
     .send 0x21 0x18 7 [5, 128, 0, 0, 44, 128, 0, 1, 173, 128, 0, 0, 0, 0, 0, 0, 0, 0, 0, 0, 2] (.sw 0x9000
      []),
     .send 0x21 0x15 7 [0, 0, 0, 0, 0, 15, 66, 64, 0, 0, 0, 0, 0, 0, 0, 0, 0, 0, 0, 0, 0] (.sw 0x9000 []),
     .send 0x21 0x17 7 [] (.sw 0x9000 []),
     .send 0x21 0x20 7 [] .wait,
     .flow [("", "Approve Signing"), ("P2PK Path", "44'/429'/0'/0/0"), ("Transaction Amount",
      "0.100000000 ERG"), ("Transaction Fee", "0.001000000 ERG"), ("", "Approve"), ("", "Reject")] (.sw
      0x9000 [87, 48, 195, 63, 17, 8, 169, 92, 227, 29, 118, 62, 166, 16, 168, 87, 88, 43, 109, 23, 137,
      181, 42, 206, 221, 141, 142, 191, 205, 182, 104, 198, 62, 105, 165, 176, 240, 43, 167, 41, 239,
      181, 144, 37, 84, 220, 207, 217, 34, 128, 218, 196, 193, 6, 0, 109])] = true := by
  decide +kernel

/-! ### can not sign tx with zero inputs -/

example : passes false (.boot testKey)
    [.send 0x21 0x01 1 [0, 5, 128, 0, 0, 44, 128, 0, 1, 173, 128, 0, 0, 0, 0, 0, 0, 0, 0, 0, 0, 0] .wait,
     .flow [("P2PK Signing", "44'/429'/0'/0/0"), ("Application", "0x00000000"), ("", "Approve"), ("",
      "Reject")] (.sw 0x9000 [7]),
     .send 0x21 0x10 7 [0, 0, 0, 1, 0, 0, 1] (.sw Sw.badInputCount [])] = true := by
  decide +kernel

/-! ### can not sign tx with zero outputs -/

example : passes false (.boot testKey)
    [.send 0x20 0x01 1 [0, 0, 0, 0, 0, 0, 0, 0, 0, 0, 0, 0, 0, 0, 0, 0, 0, 0, 0, 0, 0, 0, 0, 0, 0, 0, 0, 0,
      0, 0, 0, 0, 0, 0, 0, 0, 0, 0, 59, 154, 202, 0, 0, 0, 0, 36, 0, 0, 0, 0, 0, 0, 0, 0, 0] .wait,
     .flow [("", "Confirm Attest Input"), ("", "Approve"), ("", "Reject")] (.sw 0x9000 [7]),
     .send 0x20 0x02 7 [0, 8, 205, 3, 48, 136, 228, 87, 178, 204, 210, 210, 110, 76, 93, 248, 191, 60, 12,
      51, 40, 7, 237, 122, 158, 176, 42, 75, 113, 175, 251, 87, 111, 177, 66, 16] (.sw 0x9000 [1]),
     .send 0x20 0x05 7 [0] (.sw 0x9000 [49, 157, 163, 76, 220, 177, 187, 89, 10, 187, 88, 103, 235, 13, 50,
      52, 197, 151, 202, 139, 81, 223, 2, 68, 180, 237, 191, 222, 127, 254, 3, 147, 1, 0, 0, 0, 0, 0,
      59, 154, 202, 0, 0, 249, 131, 228, 239, 241, 164, 189, 107, 62, 203, 32, 149, 223, 249, 51, 253]),
     .send 0x21 0x01 1 [0, 5, 128, 0, 0, 44, 128, 0, 1, 173, 128, 0, 0, 0, 0, 0, 0, 0, 0, 0, 0, 0] .wait,
     .flow [("P2PK Signing", "44'/429'/0'/0/0"), ("Application", "0x00000000"), ("", "Approve"), ("",
      "Reject")] (.sw 0x9000 [7]),
     .send 0x21 0x10 7 [0, 1, 0, 1, 0, 0, 0] (.sw Sw.badOutputCount [])] = true := by
  decide +kernel

/-! ### can sign tx with tokens -/

example : passes false (.boot testKey)
    [.send 0x20 0x01 1 [0, 0, 0, 0, 0, 0, 0, 0, 0, 0, 0, 0, 0, 0, 0, 0, 0, 0, 0, 0, 0, 0, 0, 0, 0, 0, 0, 0,
      0, 0, 0, 0, 0, 0, 0, 0, 0, 0, 59, 154, 202, 0, 0, 0, 0, 36, 0, 0, 0, 0, 1, 0, 0, 0, 0] .wait,
     .flow [("", "Confirm Attest Input"), ("", "Approve"), ("", "Reject")] (.sw 0x9000 [7]),
     .send 0x20 0x02 7 [0, 8, 205, 3, 48, 136, 228, 87, 178, 204, 210, 210, 110, 76, 93, 248, 191, 60, 12,
      51, 40, 7, 237, 122, 158, 176, 42, 75, 113, 175, 251, 87, 111, 177, 66, 16] (.sw 0x9000 []),
     .send 0x20 0x03 7 [17, 17, 17, 17, 17, 17, 17, 17, 17, 17, 17, 17, 17, 17, 17, 17, 17, 17, 17, 17, 17,
      17, 17, 17, 17, 17, 17, 17, 17, 17, 17, 17, 0, 0, 0, 0, 0, 0, 3, 232] (.sw 0x9000 [1]),
     .send 0x20 0x05 7 [0] (.sw 0x9000 [243, 236, 188, 98, 185, 44, 82, 75, 3, 199, 103, 193, 253, 35, 223,
      28, 65, 111, 105, 227, 75, 210, 0, 210, 53, 209, 160, 216, 26, 147, 233, 235, 1, 0, 0, 0, 0, 0,
      59, 154, 202, 0, 1, 17, 17, 17, 17, 17, 17, 17, 17, 17, 17, 17, 17, 17, 17, 17, 17, 17, 17, 17,
      17, 17, 17, 17, 17, 17, 17, 17, 17, 17, 17, 17, 17, 0, 0, 0, 0, 0, 0, 3, 232, 133, 187, 221, 81,
      223, 180, 79, 124, 170, 238, 185, 150, 155, 199, 239, 213]),
     .send 0x21 0x01 1 [0, 5, 128, 0, 0, 44, 128, 0, 1, 173, 128, 0, 0, 0, 0, 0, 0, 0, 0, 0, 0, 0] .wait,
     .flow [("P2PK Signing", "44'/429'/0'/0/0"), ("Application", "0x00000000"), ("", "Approve"), ("",
      "Reject")] (.sw 0x9000 [7]),
     .send 0x21 0x10 7 [0, 1, 0, 1, 1, 0, 3] (.sw 0x9000 []),
     .send 0x21 0x11 7 [17, 17, 17, 17, 17, 17, 17, 17, 17, 17, 17, 17, 17, 17, 17, 17, 17, 17, 17, 17, 17,
      17, 17, 17, 17, 17, 17, 17, 17, 17, 17, 17] (.sw 0x9000 []),
     .send 0x21 0x12 7 [243, 236, 188, 98, 185, 44, 82, 75, 3, 199, 103, 193, 253, 35, 223, 28, 65, 111, 105,
      227, 75, 210, 0, 210, 53, 209, 160, 216, 26, 147, 233, 235, 1, 0, 0, 0, 0, 0, 59, 154, 202, 0, 1,
      17, 17, 17, 17, 17, 17, 17, 17, 17, 17, 17, 17, 17, 17, 17, 17, 17, 17, 17, 17, 17, 17, 17, 17,
      17, 17, 17, 17, 17, 17, 17, 17, 0, 0, 0, 0, 0, 0, 3, 232, 133, 187, 221, 81, 223, 180, 79, 124,
      170, 238, 185, 150, 155, 199, 239, 213, 0, 0, 0, 0] (.sw 0x9000 []),
     .send 0x21 0x14 7 [10, 80, 34, 129, 63, 253, 233, 140, 17, 111, 113, 47, 225, 23, 91, 89, 106, 115, 220,
      32, 99, 76, 177, 147, 94, 44, 216, 140, 224, 20, 107, 26] (.sw 0x9000 []),
     .send 0x21 0x15 7 [0, 0, 0, 0, 5, 245, 225, 0, 0, 0, 0, 36, 0, 0, 0, 0, 1, 0, 0, 0, 0] (.sw 0x9000 []),
     .send 0x21 0x16 7 [0, 8, 205, 3, 244, 76, 156, 163, 191, 223, 134, 114, 35, 123, 142, 33, 44, 220, 56,
      68, 78, 218, 158, 37, 195, 161, 227, 75, 135, 91, 118, 205, 21, 185, 146, 164] (.sw 0x9000 []),
     .send 0x21 0x19 7 [0, 0, 0, 0, 0, 0, 0, 0, 0, 0, 3, 232] .wait,
     .flow [("", "Confirm Output"), ("Address", "9iKPzGpzrEFFQ7kn2n6BHWU4fgTwSMF7atqPsvHAjgGvogSHz6Y"),
      ("Output Value", "0.100000000 ERG"), ("Token [1]",
      "11111111111111111111111111...11111111111111111111111111"), ("Token [1] Value", "1000"), ("",
      "Approve"), ("", "Reject")] (.sw 0x9000 []),
     .send 0x21 0x15 7 [0, 0, 0, 0, 53, 149, 166, 192, 0, 0, 0, 0, 0, 0, 0, 0, 0, 0, 0, 0, 0] (.sw 0x9000 []),
     .send 0x21 0x18 7 [5, 128, 0, 0, 44, 128, 0, 1, 173, 128, 0, 0, 0, 0, 0, 0, 0, 0, 0, 0, 2] (.sw 0x9000
      []),
     .send 0x21 0x15 7 [0, 0, 0, 0, 0, 15, 66, 64, 0, 0, 0, 0, 0, 0, 0, 0, 0, 0, 0, 0, 0] (.sw 0x9000 []),
     .send 0x21 0x17 7 [] (.sw 0x9000 []),
     .send 0x21 0x20 7 [] .wait,
     .flow [("", "Approve Signing"), ("P2PK Path", "44'/429'/0'/0/0"), ("Transaction Amount",
      "0.100000000 ERG"), ("Transaction Fee", "0.001000000 ERG"), ("", "Approve"), ("", "Reject")] (.sw
      0x9000 [8, 213, 32, 252, 208, 143, 181, 134, 210, 185, 133, 64, 229, 69, 108, 119, 181, 14, 100,
      136, 126, 6, 250, 129, 0, 90, 2, 44, 145, 92, 228, 182, 140, 190, 82, 198, 118, 85, 18, 196, 98,
      11, 222, 201, 188, 61, 173, 172, 27, 240, 247, 230, 240, 142, 183, 70])] = true := by
  decide +kernel

/-! ### can sign tx with burned tokens -/

example : passes false (.boot testKey)
    [.send 0x20 0x01 1 [0, 0, 0, 0, 0, 0, 0, 0, 0, 0, 0, 0, 0, 0, 0, 0, 0, 0, 0, 0, 0, 0, 0, 0, 0, 0, 0, 0,
      0, 0, 0, 0, 0, 0, 0, 0, 0, 0, 59, 154, 202, 0, 0, 0, 0, 36, 0, 0, 0, 0, 1, 0, 0, 0, 0] .wait,
     .flow [("", "Confirm Attest Input"), ("", "Approve"), ("", "Reject")] (.sw 0x9000 [7]),
     .send 0x20 0x02 7 [0, 8, 205, 3, 48, 136, 228, 87, 178, 204, 210, 210, 110, 76, 93, 248, 191, 60, 12,
      51, 40, 7, 237, 122, 158, 176, 42, 75, 113, 175, 251, 87, 111, 177, 66, 16] (.sw 0x9000 []),
     .send 0x20 0x03 7 [17, 17, 17, 17, 17, 17, 17, 17, 17, 17, 17, 17, 17, 17, 17, 17, 17, 17, 17, 17, 17,
      17, 17, 17, 17, 17, 17, 17, 17, 17, 17, 17, 0, 0, 0, 0, 0, 0, 3, 232] (.sw 0x9000 [1]),
     .send 0x20 0x05 7 [0] (.sw 0x9000 [243, 236, 188, 98, 185, 44, 82, 75, 3, 199, 103, 193, 253, 35, 223,
      28, 65, 111, 105, 227, 75, 210, 0, 210, 53, 209, 160, 216, 26, 147, 233, 235, 1, 0, 0, 0, 0, 0,
      59, 154, 202, 0, 1, 17, 17, 17, 17, 17, 17, 17, 17, 17, 17, 17, 17, 17, 17, 17, 17, 17, 17, 17,
      17, 17, 17, 17, 17, 17, 17, 17, 17, 17, 17, 17, 17, 0, 0, 0, 0, 0, 0, 3, 232, 133, 187, 221, 81,
      223, 180, 79, 124, 170, 238, 185, 150, 155, 199, 239, 213]),
     .send 0x21 0x01 1 [0, 5, 128, 0, 0, 44, 128, 0, 1, 173, 128, 0, 0, 0, 0, 0, 0, 0, 0, 0, 0, 0] .wait,
     .flow [("P2PK Signing", "44'/429'/0'/0/0"), ("Application", "0x00000000"), ("", "Approve"), ("",
      "Reject")] (.sw 0x9000 [7]),
     .send 0x21 0x10 7 [0, 1, 0, 1, 0, 0, 3] (.sw 0x9000 []),
     .send 0x21 0x12 7 [243, 236, 188, 98, 185, 44, 82, 75, 3, 199, 103, 193, 253, 35, 223, 28, 65, 111, 105,
      227, 75, 210, 0, 210, 53, 209, 160, 216, 26, 147, 233, 235, 1, 0, 0, 0, 0, 0, 59, 154, 202, 0, 1,
      17, 17, 17, 17, 17, 17, 17, 17, 17, 17, 17, 17, 17, 17, 17, 17, 17, 17, 17, 17, 17, 17, 17, 17,
      17, 17, 17, 17, 17, 17, 17, 17, 0, 0, 0, 0, 0, 0, 3, 232, 133, 187, 221, 81, 223, 180, 79, 124,
      170, 238, 185, 150, 155, 199, 239, 213, 0, 0, 0, 0] (.sw 0x9000 []),
     .send 0x21 0x14 7 [10, 80, 34, 129, 63, 253, 233, 140, 17, 111, 113, 47, 225, 23, 91, 89, 106, 115, 220,
      32, 99, 76, 177, 147, 94, 44, 216, 140, 224, 20, 107, 26] (.sw 0x9000 []),
     .send 0x21 0x15 7 [0, 0, 0, 0, 5, 245, 225, 0, 0, 0, 0, 36, 0, 0, 0, 0, 0, 0, 0, 0, 0] (.sw 0x9000 []),
     .send 0x21 0x16 7 [0, 8, 205, 3, 244, 76, 156, 163, 191, 223, 134, 114, 35, 123, 142, 33, 44, 220, 56,
      68, 78, 218, 158, 37, 195, 161, 227, 75, 135, 91, 118, 205, 21, 185, 146, 164] .wait,
     .flow [("", "Confirm Output"), ("Address", "9iKPzGpzrEFFQ7kn2n6BHWU4fgTwSMF7atqPsvHAjgGvogSHz6Y"),
      ("Output Value", "0.100000000 ERG"), ("", "Approve"), ("", "Reject")] (.sw 0x9000 []),
     .send 0x21 0x15 7 [0, 0, 0, 0, 53, 149, 166, 192, 0, 0, 0, 0, 0, 0, 0, 0, 0, 0, 0, 0, 0] (.sw 0x9000 []),
     .send 0x21 0x18 7 [5, 128, 0, 0, 44, 128, 0, 1, 173, 128, 0, 0, 0, 0, 0, 0, 0, 0, 0, 0, 2] (.sw 0x9000
      []),
     .send 0x21 0x15 7 [0, 0, 0, 0, 0, 15, 66, 64, 0, 0, 0, 0, 0, 0, 0, 0, 0, 0, 0, 0, 0] (.sw 0x9000 []),
     .send 0x21 0x17 7 [] (.sw 0x9000 []),
     .send 0x21 0x20 7 [] .wait,
     .flow [("", "Approve Signing"), ("P2PK Path", "44'/429'/0'/0/0"), ("Transaction Amount",
      "0.100000000 ERG"), ("Transaction Fee", "0.001000000 ERG"), ("Token [1]",
      "11111111111111111111111111...11111111111111111111111111"), ("Token [1] Value", "Burning: 1000"),
      ("", "Approve"), ("", "Reject")] (.sw 0x9000 [100, 178, 112, 244, 87, 17, 10, 171, 25, 80, 104,
      120, 248, 199, 42, 24, 77, 87, 245, 207, 75, 79, 69, 116, 166, 58, 234, 34, 79, 130, 65, 82, 132,
      211, 40, 25, 142, 56, 176, 78, 34, 205, 86, 242, 219, 144, 139, 137, 144, 99, 53, 86, 126, 168,
      234, 96])] = true := by
  decide +kernel

/-! ### can sign tx with minted tokens -/

example : passes false (.boot testKey)
    [.send 0x20 0x01 1 [0, 0, 0, 0, 0, 0, 0, 0, 0, 0, 0, 0, 0, 0, 0, 0, 0, 0, 0, 0, 0, 0, 0, 0, 0, 0, 0, 0,
      0, 0, 0, 0, 0, 0, 0, 0, 0, 0, 59, 154, 202, 0, 0, 0, 0, 36, 0, 0, 0, 0, 0, 0, 0, 0, 0] .wait,
     .flow [("", "Confirm Attest Input"), ("", "Approve"), ("", "Reject")] (.sw 0x9000 [7]),
     .send 0x20 0x02 7 [0, 8, 205, 3, 48, 136, 228, 87, 178, 204, 210, 210, 110, 76, 93, 248, 191, 60, 12,
      51, 40, 7, 237, 122, 158, 176, 42, 75, 113, 175, 251, 87, 111, 177, 66, 16] (.sw 0x9000 [1]),
     .send 0x20 0x05 7 [0] (.sw 0x9000 [49, 157, 163, 76, 220, 177, 187, 89, 10, 187, 88, 103, 235, 13, 50,
      52, 197, 151, 202, 139, 81, 223, 2, 68, 180, 237, 191, 222, 127, 254, 3, 147, 1, 0, 0, 0, 0, 0,
      59, 154, 202, 0, 0, 249, 131, 228, 239, 241, 164, 189, 107, 62, 203, 32, 149, 223, 249, 51, 253]),
     .send 0x21 0x01 1 [0, 5, 128, 0, 0, 44, 128, 0, 1, 173, 128, 0, 0, 0, 0, 0, 0, 0, 0, 0, 0, 0] .wait,
     .flow [("P2PK Signing", "44'/429'/0'/0/0"), ("Application", "0x00000000"), ("", "Approve"), ("",
      "Reject")] (.sw 0x9000 [7]),
     .send 0x21 0x10 7 [0, 1, 0, 1, 1, 0, 3] (.sw 0x9000 []),
     .send 0x21 0x11 7 [49, 157, 163, 76, 220, 177, 187, 89, 10, 187, 88, 103, 235, 13, 50, 52, 197, 151,
      202, 139, 81, 223, 2, 68, 180, 237, 191, 222, 127, 254, 3, 147] (.sw 0x9000 []),
     .send 0x21 0x12 7 [49, 157, 163, 76, 220, 177, 187, 89, 10, 187, 88, 103, 235, 13, 50, 52, 197, 151,
      202, 139, 81, 223, 2, 68, 180, 237, 191, 222, 127, 254, 3, 147, 1, 0, 0, 0, 0, 0, 59, 154, 202, 0,
      0, 249, 131, 228, 239, 241, 164, 189, 107, 62, 203, 32, 149, 223, 249, 51, 253, 0, 0, 0, 0] (.sw
      0x9000 []),
     .send 0x21 0x14 7 [10, 80, 34, 129, 63, 253, 233, 140, 17, 111, 113, 47, 225, 23, 91, 89, 106, 115, 220,
      32, 99, 76, 177, 147, 94, 44, 216, 140, 224, 20, 107, 26] (.sw 0x9000 []),
     .send 0x21 0x15 7 [0, 0, 0, 0, 5, 245, 225, 0, 0, 0, 0, 36, 0, 0, 0, 0, 1, 0, 0, 0, 0] (.sw 0x9000 []),
     .send 0x21 0x16 7 [0, 8, 205, 3, 244, 76, 156, 163, 191, 223, 134, 114, 35, 123, 142, 33, 44, 220, 56,
      68, 78, 218, 158, 37, 195, 161, 227, 75, 135, 91, 118, 205, 21, 185, 146, 164] (.sw 0x9000 []),
     .send 0x21 0x19 7 [0, 0, 0, 0, 0, 0, 0, 0, 0, 0, 3, 232] .wait,
     .flow [("", "Confirm Output"), ("Address", "9iKPzGpzrEFFQ7kn2n6BHWU4fgTwSMF7atqPsvHAjgGvogSHz6Y"),
      ("Output Value", "0.100000000 ERG"), ("Token [1]",
      "319DA34CDCB1BB590ABB5867EB...8B51DF0244B4EDBFDE7FFE0393"), ("Token [1] Value", "1000"), ("",
      "Approve"), ("", "Reject")] (.sw 0x9000 []),
     .send 0x21 0x15 7 [0, 0, 0, 0, 53, 149, 166, 192, 0, 0, 0, 0, 0, 0, 0, 0, 0, 0, 0, 0, 0] (.sw 0x9000 []),
     .send 0x21 0x18 7 [5, 128, 0, 0, 44, 128, 0, 1, 173, 128, 0, 0, 0, 0, 0, 0, 0, 0, 0, 0, 2] (.sw 0x9000
      []),
     .send 0x21 0x15 7 [0, 0, 0, 0, 0, 15, 66, 64, 0, 0, 0, 0, 0, 0, 0, 0, 0, 0, 0, 0, 0] (.sw 0x9000 []),
     .send 0x21 0x17 7 [] (.sw 0x9000 []),
     .send 0x21 0x20 7 [] .wait,
     .flow [("", "Approve Signing"), ("P2PK Path", "44'/429'/0'/0/0"), ("Transaction Amount",
      "0.100000000 ERG"), ("Transaction Fee", "0.001000000 ERG"), ("Token [1]",
      "319DA34CDCB1BB590ABB5867EB...8B51DF0244B4EDBFDE7FFE0393"), ("Token [1] Value", "Minting: 1000"),
      ("", "Approve"), ("", "Reject")] (.sw 0x9000 [209, 252, 172, 63, 55, 119, 4, 56, 33, 58, 146, 213,
      27, 5, 159, 88, 151, 38, 180, 99, 227, 13, 252, 186, 14, 213, 70, 148, 218, 112, 179, 48, 131,
      163, 207, 44, 42, 178, 94, 236, 111, 200, 82, 68, 50, 18, 35, 228, 135, 42, 2, 245, 60, 52, 8,
      75])] = true := by
  decide +kernel

/-! ### can sign tx with few token ids -/

example : passes false (.boot testKey)
    [.send 0x20 0x01 1 [0, 0, 0, 0, 0, 0, 0, 0, 0, 0, 0, 0, 0, 0, 0, 0, 0, 0, 0, 0, 0, 0, 0, 0, 0, 0, 0, 0,
      0, 0, 0, 0, 0, 0, 0, 0, 0, 0, 59, 154, 202, 0, 0, 0, 0, 36, 0, 0, 0, 0, 1, 0, 0, 0, 0] .wait,
     .flow [("", "Confirm Attest Input"), ("", "Approve"), ("", "Reject")] (.sw 0x9000 [7]),
     .send 0x20 0x02 7 [0, 8, 205, 3, 48, 136, 228, 87, 178, 204, 210, 210, 110, 76, 93, 248, 191, 60, 12,
      51, 40, 7, 237, 122, 158, 176, 42, 75, 113, 175, 251, 87, 111, 177, 66, 16] (.sw 0x9000 []),
     .send 0x20 0x03 7 [17, 17, 17, 17, 17, 17, 17, 17, 17, 17, 17, 17, 17, 17, 17, 17, 17, 17, 17, 17, 17,
      17, 17, 17, 17, 17, 17, 17, 17, 17, 17, 17, 0, 0, 0, 0, 0, 0, 4, 210] (.sw 0x9000 [1]),
     .send 0x20 0x05 7 [0] (.sw 0x9000 [166, 221, 29, 153, 129, 22, 152, 148, 225, 52, 188, 151, 191, 217,
      59, 77, 244, 240, 109, 1, 220, 149, 210, 16, 185, 253, 154, 137, 21, 134, 102, 11, 1, 0, 0, 0, 0,
      0, 59, 154, 202, 0, 1, 17, 17, 17, 17, 17, 17, 17, 17, 17, 17, 17, 17, 17, 17, 17, 17, 17, 17, 17,
      17, 17, 17, 17, 17, 17, 17, 17, 17, 17, 17, 17, 17, 0, 0, 0, 0, 0, 0, 4, 210, 158, 84, 85, 156,
      189, 152, 87, 196, 135, 137, 94, 184, 94, 17, 35, 203]),
     .send 0x21 0x01 1 [0, 5, 128, 0, 0, 44, 128, 0, 1, 173, 128, 0, 0, 0, 0, 0, 0, 0, 0, 0, 0, 0] .wait,
     .flow [("P2PK Signing", "44'/429'/0'/0/0"), ("Application", "0x00000000"), ("", "Approve"), ("",
      "Reject")] (.sw 0x9000 [7]),
     .send 0x21 0x10 7 [0, 1, 0, 1, 1, 0, 3] (.sw 0x9000 []),
     .send 0x21 0x11 7 [166, 221, 29, 153, 129, 22, 152, 148, 225, 52, 188, 151, 191, 217, 59, 77, 244, 240,
      109, 1, 220, 149, 210, 16, 185, 253, 154, 137, 21, 134, 102, 11] (.sw 0x9000 []),
     .send 0x21 0x12 7 [166, 221, 29, 153, 129, 22, 152, 148, 225, 52, 188, 151, 191, 217, 59, 77, 244, 240,
      109, 1, 220, 149, 210, 16, 185, 253, 154, 137, 21, 134, 102, 11, 1, 0, 0, 0, 0, 0, 59, 154, 202,
      0, 1, 17, 17, 17, 17, 17, 17, 17, 17, 17, 17, 17, 17, 17, 17, 17, 17, 17, 17, 17, 17, 17, 17, 17,
      17, 17, 17, 17, 17, 17, 17, 17, 17, 0, 0, 0, 0, 0, 0, 4, 210, 158, 84, 85, 156, 189, 152, 87, 196,
      135, 137, 94, 184, 94, 17, 35, 203, 0, 0, 0, 0] (.sw 0x9000 []),
     .send 0x21 0x14 7 [10, 80, 34, 129, 63, 253, 233, 140, 17, 111, 113, 47, 225, 23, 91, 89, 106, 115, 220,
      32, 99, 76, 177, 147, 94, 44, 216, 140, 224, 20, 107, 26] (.sw 0x9000 []),
     .send 0x21 0x15 7 [0, 0, 0, 0, 5, 245, 225, 0, 0, 0, 0, 36, 0, 0, 0, 0, 1, 0, 0, 0, 0] (.sw 0x9000 []),
     .send 0x21 0x16 7 [0, 8, 205, 3, 244, 76, 156, 163, 191, 223, 134, 114, 35, 123, 142, 33, 44, 220, 56,
      68, 78, 218, 158, 37, 195, 161, 227, 75, 135, 91, 118, 205, 21, 185, 146, 164] (.sw 0x9000 []),
     .send 0x21 0x19 7 [0, 0, 0, 0, 0, 0, 0, 0, 0, 0, 22, 46] .wait,
     .flow [("", "Confirm Output"), ("Address", "9iKPzGpzrEFFQ7kn2n6BHWU4fgTwSMF7atqPsvHAjgGvogSHz6Y"),
      ("Output Value", "0.100000000 ERG"), ("Token [1]",
      "A6DD1D9981169894E134BC97BF...01DC95D210B9FD9A891586660B"), ("Token [1] Value", "5678"), ("",
      "Approve"), ("", "Reject")] (.sw 0x9000 []),
     .send 0x21 0x15 7 [0, 0, 0, 0, 53, 149, 166, 192, 0, 0, 0, 0, 0, 0, 0, 0, 0, 0, 0, 0, 0] (.sw 0x9000 []),
     .send 0x21 0x18 7 [5, 128, 0, 0, 44, 128, 0, 1, 173, 128, 0, 0, 0, 0, 0, 0, 0, 0, 0, 0, 2] (.sw 0x9000
      []),
     .send 0x21 0x15 7 [0, 0, 0, 0, 0, 15, 66, 64, 0, 0, 0, 0, 0, 0, 0, 0, 0, 0, 0, 0, 0] (.sw 0x9000 []),
     .send 0x21 0x17 7 [] (.sw 0x9000 []),
     .send 0x21 0x20 7 [] .wait,
     .flow [("", "Approve Signing"), ("P2PK Path", "44'/429'/0'/0/0"), ("Transaction Amount",
      "0.100000000 ERG"), ("Transaction Fee", "0.001000000 ERG"), ("Token [1]",
      "A6DD1D9981169894E134BC97BF...01DC95D210B9FD9A891586660B"), ("Token [1] Value", "Minting: 5678"),
      ("Token [2]", "11111111111111111111111111...11111111111111111111111111"), ("Token [2] Value",
      "Burning: 1234"), ("", "Approve"), ("", "Reject")] (.sw 0x9000 [135, 55, 59, 186, 161, 120, 130,
      166, 127, 92, 44, 140, 67, 18, 243, 144, 194, 226, 130, 61, 39, 116, 211, 152, 69, 132, 191, 85,
      43, 106, 91, 185, 20, 230, 23, 108, 60, 208, 182, 237, 253, 10, 160, 26, 150, 209, 144, 149, 113,
      27, 183, 60, 152, 23, 164, 15])] = true := by
  decide +kernel

example : passes true (.boot testKey)
    [.send 0x20 0x01 1 [0, 0, 0, 0, 0, 0, 0, 0, 0, 0, 0, 0, 0, 0, 0, 0, 0, 0, 0, 0, 0, 0, 0, 0, 0, 0, 0, 0,
      0, 0, 0, 0, 0, 0, 0, 0, 0, 0, 59, 154, 202, 0, 0, 0, 0, 36, 0, 0, 0, 0, 1, 0, 0, 0, 0] .wait,
     .flow [("", "Confirm Attest Input"), ("", "Approve"), ("", "Reject")] (.sw 0x9000 [7]),
     .send 0x20 0x02 7 [0, 8, 205, 3, 48, 136, 228, 87, 178, 204, 210, 210, 110, 76, 93, 248, 191, 60, 12,
      51, 40, 7, 237, 122, 158, 176, 42, 75, 113, 175, 251, 87, 111, 177, 66, 16] (.sw 0x9000 []),
     .send 0x20 0x03 7 [17, 17, 17, 17, 17, 17, 17, 17, 17, 17, 17, 17, 17, 17, 17, 17, 17, 17, 17, 17, 17,
      17, 17, 17, 17, 17, 17, 17, 17, 17, 17, 17, 0, 0, 0, 0, 0, 0, 4, 210] (.sw 0x9000 [1]),
     .send 0x20 0x05 7 [0] (.sw 0x9000 [166, 221, 29, 153, 129, 22, 152, 148, 225, 52, 188, 151, 191, 217,
      59, 77, 244, 240, 109, 1, 220, 149, 210, 16, 185, 253, 154, 137, 21, 134, 102, 11, 1, 0, 0, 0, 0,
      0, 59, 154, 202, 0, 1, 17, 17, 17, 17, 17, 17, 17, 17, 17, 17, 17, 17, 17, 17, 17, 17, 17, 17, 17,
      17, 17, 17, 17, 17, 17, 17, 17, 17, 17, 17, 17, 17, 0, 0, 0, 0, 0, 0, 4, 210, 158, 84, 85, 156,
      189, 152, 87, 196, 135, 137, 94, 184, 94, 17, 35, 203]),
     .send 0x21 0x01 1 [0, 5, 128, 0, 0, 44, 128, 0, 1, 173, 128, 0, 0, 0, 0, 0, 0, 0, 0, 0, 0, 0] .wait,
     .flow [("P2PK Signing", "44'/429'/0'/0/0"), ("Application", "0x00000000"), ("", "Approve"), ("",
      "Reject")] (.sw 0x9000 [7]),
     .send 0x21 0x10 7 [0, 1, 0, 1, 1, 0, 3] (.sw 0x9000 []),
     .send 0x21 0x11 7 [166, 221, 29, 153, 129, 22, 152, 148, 225, 52, 188, 151, 191, 217, 59, 77, 244, 240,
      109, 1, 220, 149, 210, 16, 185, 253, 154, 137, 21, 134, 102, 11] (.sw 0x9000 []),
     .send 0x21 0x12 7 [166, 221, 29, 153, 129, 22, 152, 148, 225, 52, 188, 151, 191, 217, 59, 77, 244, 240,
      109, 1, 220, 149, 210, 16, 185, 253, 154, 137, 21, 134, 102, 11, 1, 0, 0, 0, 0, 0, 59, 154, 202,
      0, 1, 17, 17, 17, 17, 17, 17, 17, 17, 17, 17, 17, 17, 17, 17, 17, 17, 17, 17, 17, 17, 17, 17, 17,
      17, 17, 17, 17, 17, 17, 17, 17, 17, 0, 0, 0, 0, 0, 0, 4, 210, 158, 84, 85, 156, 189, 152, 87, 196,
      135, 137, 94, 184, 94, 17, 35, 203, 0, 0, 0, 0] (.sw 0x9000 []),
     .send 0x21 0x14 7 [10, 80, 34, 129, 63, 253, 233, 140, 17, 111, 113, 47, 225, 23, 91, 89, 106, 115, 220,
      32, 99, 76, 177, 147, 94, 44, 216, 140, 224, 20, 107, 26] (.sw 0x9000 []),
     .send 0x21 0x15 7 [0, 0, 0, 0, 5, 245, 225, 0, 0, 0, 0, 36, 0, 0, 0, 0, 1, 0, 0, 0, 0] (.sw 0x9000 []),
     .send 0x21 0x16 7 [0, 8, 205, 3, 244, 76, 156, 163, 191, 223, 134, 114, 35, 123, 142, 33, 44, 220, 56,
      68, 78, 218, 158, 37, 195, 161, 227, 75, 135, 91, 118, 205, 21, 185, 146, 164] (.sw 0x9000 []),
     .send 0x21 0x19 7 [0, 0, 0, 0, 0, 0, 0, 0, 0, 0, 22, 46] .wait,
     .flow [("", "Confirm Output"), ("Address", "9iKPzGpzrEFFQ7kn2n6BHWU4fgTwSMF7atqPsvHAjgGvogSHz6Y"),
      ("Output Value", "0.100000000 ERG"), ("Token [1]", "A6DD1D9...586660B"), ("Token [1] Value",
      "5678"), ("", "Approve"), ("", "Reject")] (.sw 0x9000 []),
     .send 0x21 0x15 7 [0, 0, 0, 0, 53, 149, 166, 192, 0, 0, 0, 0, 0, 0, 0, 0, 0, 0, 0, 0, 0] (.sw 0x9000 []),
     .send 0x21 0x18 7 [5, 128, 0, 0, 44, 128, 0, 1, 173, 128, 0, 0, 0, 0, 0, 0, 0, 0, 0, 0, 2] (.sw 0x9000
      []),
     .send 0x21 0x15 7 [0, 0, 0, 0, 0, 15, 66, 64, 0, 0, 0, 0, 0, 0, 0, 0, 0, 0, 0, 0, 0] (.sw 0x9000 []),
     .send 0x21 0x17 7 [] (.sw 0x9000 []),
     .send 0x21 0x20 7 [] .wait,
     .flow [("", "Approve Signing"), ("P2PK Path", "44'/429'/0'/0/0"), ("Transaction Amount",
      "0.100000000 ERG"), ("Transaction Fee", "0.001000000 ERG"), ("Token [1]", "A6DD1D9...586660B"),
      ("Token [1] Value", "Minting: 5678"), ("Token [2]", "1111111...1111111"), ("Token [2] Value",
      "Burning: 1234"), ("", "Approve"), ("", "Reject")] (.sw 0x9000 [135, 55, 59, 186, 161, 120, 130,
      166, 127, 92, 44, 140, 67, 18, 243, 144, 194, 226, 130, 61, 39, 116, 211, 152, 69, 132, 191, 85,
      43, 106, 91, 185, 20, 230, 23, 108, 60, 208, 182, 237, 253, 10, 160, 26, 150, 209, 144, 149, 113,
      27, 183, 60, 152, 23, 164, 15])] = true := by
  decide +kernel

/-! ### can derive address (with auth token) -/

example : passes false (.boot testKey)
    [.send 0x11 0x01 2 [0, 5, 128, 0, 0, 44, 128, 0, 1, 173, 128, 0, 0, 0, 0, 0, 0, 0, 0, 0, 0, 0, 90, 192,
      12, 123] .wait,
     .flow [("", "Confirm Send Address"), ("Path", "44'/429'/0'/0/0"), ("Application", "0x5ac00c7b"), ("",
      "Approve"), ("", "Reject")] (.sw 0x9000 [1, 3, 48, 136, 228, 87, 178, 204, 210, 210, 110, 76, 93,
      248, 191, 60, 12, 51, 40, 7, 237, 122, 158, 176, 42, 75, 113, 175, 251, 87, 111, 177, 66, 16, 107,
      168, 220, 65])] = true := by
  decide +kernel

/-! ### can show address (with auth token) -/

example : passes false (.boot testKey)
    [.send 0x11 0x02 2 [0, 5, 128, 0, 0, 44, 128, 0, 1, 173, 128, 0, 0, 0, 0, 0, 0, 0, 0, 0, 0, 0, 90, 192,
      12, 123] .wait,
     .flow [("", "Confirm Address"), ("Path", "44'/429'/0'/0/0"), ("Address",
      "9gqBSpseifxnkjRLZUxs5wbJGsvYPG7MLRcBgnKEzFiJoMJaakg"), ("Application", "0x5ac00c7b"), ("",
      "Approve"), ("", "Reject")] (.sw 0x9000 [])] = true := by
  decide +kernel

/-! ### can get extended public key (with auth token) -/

example : passes false (.boot testKey)
    [.send 0x10 0x02 0 [3, 128, 0, 0, 44, 128, 0, 1, 173, 128, 0, 0, 0, 90, 192, 12, 123] .wait,
     .flow [("", "Ext PubKey Export"), ("Path", "44'/429'/0'"), ("Application", "0x5ac00c7b"), ("",
      "Approve"), ("", "Reject")] (.sw 0x9000 [3, 194, 78, 85, 0, 139, 82, 60, 202, 240, 59, 108, 117,
      127, 136, 196, 136, 30, 243, 51, 26, 37, 91, 118, 210, 224, 120, 1, 108, 105, 195, 223, 212, 142,
      178, 156, 120, 151, 213, 122, 238, 55, 27, 242, 84, 190, 101, 22, 230, 150, 62, 45, 155, 55, 157,
      13, 98, 108, 23, 163, 157, 26, 59, 245, 83])] = true := by
  decide +kernel

/-! ### can attest input (with auth token) -/

example : passes false (.boot testKey)
    [.send 0x20 0x01 2 [0, 0, 0, 0, 0, 0, 0, 0, 0, 0, 0, 0, 0, 0, 0, 0, 0, 0, 0, 0, 0, 0, 0, 0, 0, 0, 0, 0,
      0, 0, 0, 0, 0, 0, 0, 0, 0, 0, 59, 154, 202, 0, 0, 0, 0, 36, 0, 0, 0, 0, 0, 0, 0, 0, 0, 90, 192,
      12, 123] .wait,
     .flow [("", "Confirm Attest Input"), ("Application", "0x5ac00c7b"), ("", "Approve"), ("", "Reject")]
      (.sw 0x9000 [7]),
     .send 0x20 0x02 7 [0, 8, 205, 3, 48, 136, 228, 87, 178, 204, 210, 210, 110, 76, 93, 248, 191, 60, 12,
      51, 40, 7, 237, 122, 158, 176, 42, 75, 113, 175, 251, 87, 111, 177, 66, 16] (.sw 0x9000 [1]),
     .send 0x20 0x05 7 [0] (.sw 0x9000 [49, 157, 163, 76, 220, 177, 187, 89, 10, 187, 88, 103, 235, 13, 50,
      52, 197, 151, 202, 139, 81, 223, 2, 68, 180, 237, 191, 222, 127, 254, 3, 147, 1, 0, 0, 0, 0, 0,
      59, 154, 202, 0, 0, 249, 131, 228, 239, 241, 164, 189, 107, 62, 203, 32, 149, 223, 249, 51, 253])] = true := by
  decide +kernel

/-! ### can sign tx (with auth token) -/

example : passes false (.boot testKey)
    [.send 0x20 0x01 2 [0, 0, 0, 0, 0, 0, 0, 0, 0, 0, 0, 0, 0, 0, 0, 0, 0, 0, 0, 0, 0, 0, 0, 0, 0, 0, 0, 0,
      0, 0, 0, 0, 0, 0, 0, 0, 0, 0, 59, 154, 202, 0, 0, 0, 0, 36, 0, 0, 0, 0, 0, 0, 0, 0, 0, 90, 192,
      12, 123] .wait,
     .flow [("", "Confirm Attest Input"), ("Application", "0x5ac00c7b"), ("", "Approve"), ("", "Reject")]
      (.sw 0x9000 [7]),
     .send 0x20 0x02 7 [0, 8, 205, 3, 48, 136, 228, 87, 178, 204, 210, 210, 110, 76, 93, 248, 191, 60, 12,
      51, 40, 7, 237, 122, 158, 176, 42, 75, 113, 175, 251, 87, 111, 177, 66, 16] (.sw 0x9000 [1]),
     .send 0x20 0x05 7 [0] (.sw 0x9000 [49, 157, 163, 76, 220, 177, 187, 89, 10, 187, 88, 103, 235, 13, 50,
      52, 197, 151, 202, 139, 81, 223, 2, 68, 180, 237, 191, 222, 127, 254, 3, 147, 1, 0, 0, 0, 0, 0,
      59, 154, 202, 0, 0, 249, 131, 228, 239, 241, 164, 189, 107, 62, 203, 32, 149, 223, 249, 51, 253]),
     .send 0x21 0x01 2 [0, 5, 128, 0, 0, 44, 128, 0, 1, 173, 128, 0, 0, 0, 0, 0, 0, 0, 0, 0, 0, 0, 90, 192,
      12, 123] .wait,
     .flow [("P2PK Signing", "44'/429'/0'/0/0"), ("", "Approve"), ("", "Reject")] (.sw 0x9000 [7]),
     .send 0x21 0x10 7 [0, 1, 0, 1, 0, 0, 3] (.sw 0x9000 []),
     .send 0x21 0x12 7 [49, 157, 163, 76, 220, 177, 187, 89, 10, 187, 88, 103, 235, 13, 50, 52, 197, 151,
      202, 139, 81, 223, 2, 68, 180, 237, 191, 222, 127, 254, 3, 147, 1, 0, 0, 0, 0, 0, 59, 154, 202, 0,
      0, 249, 131, 228, 239, 241, 164, 189, 107, 62, 203, 32, 149, 223, 249, 51, 253, 0, 0, 0, 0] (.sw
      0x9000 []),
     .send 0x21 0x14 7 [58, 147, 188, 123, 59, 202, 118, 208, 209, 245, 201, 93, 28, 210, 76, 140, 184, 197,
      44, 45, 252, 118, 232, 199, 18, 183, 21, 189, 224, 245, 97, 195] (.sw 0x9000 []),
     .send 0x21 0x15 7 [0, 0, 0, 0, 5, 245, 225, 0, 0, 0, 0, 36, 0, 0, 0, 0, 0, 0, 0, 0, 0] (.sw 0x9000 []),
     .send 0x21 0x16 7 [0, 8, 205, 3, 244, 76, 156, 163, 191, 223, 134, 114, 35, 123, 142, 33, 44, 220, 56,
      68, 78, 218, 158, 37, 195, 161, 227, 75, 135, 91, 118, 205, 21, 185, 146, 164] .wait,
     .flow [("", "Confirm Output"), ("Address", "9iKPzGpzrEFFQ7kn2n6BHWU4fgTwSMF7atqPsvHAjgGvogSHz6Y"),
      ("Output Value", "0.100000000 ERG"), ("", "Approve"), ("", "Reject")] (.sw 0x9000 []),
     .send 0x21 0x15 7 [0, 0, 0, 0, 53, 149, 166, 192, 0, 0, 0, 0, 0, 0, 0, 0, 0, 0, 0, 0, 0] (.sw 0x9000 []),
     .send 0x21 0x18 7 [5, 128, 0, 0, 44, 128, 0, 1, 173, 128, 0, 0, 0, 0, 0, 0, 0, 0, 0, 0, 2] (.sw 0x9000
      []),
     .send 0x21 0x15 7 [0, 0, 0, 0, 0, 15, 66, 64, 0, 0, 0, 0, 0, 0, 0, 0, 0, 0, 0, 0, 0] (.sw 0x9000 []),
     .send 0x21 0x17 7 [] (.sw 0x9000 []),
     .send 0x21 0x20 7 [] .wait,
     .flow [("", "Approve Signing"), ("P2PK Path", "44'/429'/0'/0/0"), ("Transaction Amount",
      "0.100000000 ERG"), ("Transaction Fee", "0.001000000 ERG"), ("", "Approve"), ("", "Reject")] (.sw
      0x9000 [35, 36, 236, 29, 233, 17, 184, 158, 236, 4, 81, 143, 158, 144, 176, 92, 74, 223, 3, 238,
      196, 66, 98, 255, 205, 230, 221, 77, 209, 70, 137, 238, 211, 165, 151, 244, 165, 156, 250, 144,
      148, 162, 9, 243, 166, 77, 3, 0, 147, 26, 153, 98, 100, 56, 205, 129])] = true := by
  decide +kernel

/-! ### can sign tx with zero data inputs (with auth token) -/

example : passes false (.boot testKey)
    [.send 0x20 0x01 2 [0, 0, 0, 0, 0, 0, 0, 0, 0, 0, 0, 0, 0, 0, 0, 0, 0, 0, 0, 0, 0, 0, 0, 0, 0, 0, 0, 0,
      0, 0, 0, 0, 0, 0, 0, 0, 0, 0, 59, 154, 202, 0, 0, 0, 0, 36, 0, 0, 0, 0, 0, 0, 0, 0, 0, 90, 192,
      12, 123] .wait,
     .flow [("", "Confirm Attest Input"), ("Application", "0x5ac00c7b"), ("", "Approve"), ("", "Reject")]
      (.sw 0x9000 [7]),
     .send 0x20 0x02 7 [0, 8, 205, 3, 48, 136, 228, 87, 178, 204, 210, 210, 110, 76, 93, 248, 191, 60, 12,
      51, 40, 7, 237, 122, 158, 176, 42, 75, 113, 175, 251, 87, 111, 177, 66, 16] (.sw 0x9000 [1]),
     .send 0x20 0x05 7 [0] (.sw 0x9000 [49, 157, 163, 76, 220, 177, 187, 89, 10, 187, 88, 103, 235, 13, 50,
      52, 197, 151, 202, 139, 81, 223, 2, 68, 180, 237, 191, 222, 127, 254, 3, 147, 1, 0, 0, 0, 0, 0,
      59, 154, 202, 0, 0, 249, 131, 228, 239, 241, 164, 189, 107, 62, 203, 32, 149, 223, 249, 51, 253]),
     .send 0x21 0x01 2 [0, 5, 128, 0, 0, 44, 128, 0, 1, 173, 128, 0, 0, 0, 0, 0, 0, 0, 0, 0, 0, 0, 90, 192,
      12, 123] .wait,
     .flow [("P2PK Signing", "44'/429'/0'/0/0"), ("", "Approve"), ("", "Reject")] (.sw 0x9000 [7]),
     .send 0x21 0x10 7 [0, 1, 0, 0, 0, 0, 3] (.sw 0x9000 []),
     .send 0x21 0x12 7 [49, 157, 163, 76, 220, 177, 187, 89, 10, 187, 88, 103, 235, 13, 50, 52, 197, 151,
      202, 139, 81, 223, 2, 68, 180, 237, 191, 222, 127, 254, 3, 147, 1, 0, 0, 0, 0, 0, 59, 154, 202, 0,
      0, 249, 131, 228, 239, 241, 164, 189, 107, 62, 203, 32, 149, 223, 249, 51, 253, 0, 0, 0, 0] (.sw
      0x9000 []),
     .send 0x21 0x15 7 [0, 0, 0, 0, 5, 245, 225, 0, 0, 0, 0, 36, 0, 0, 0, 0, 0, 0, 0, 0, 0] (.sw 0x9000 []),
     .send 0x21 0x16 7 [0, 8, 205, 3, 244, 76, 156, 163, 191, 223, 134, 114, 35, 123, 142, 33, 44, 220, 56,
      68, 78, 218, 158, 37, 195, 161, 227, 75, 135, 91, 118, 205, 21, 185, 146, 164] .wait,
     .flow [("", "Confirm Output"), ("Address", "9iKPzGpzrEFFQ7kn2n6BHWU4fgTwSMF7atqPsvHAjgGvogSHz6Y"),
      ("Output Value", "0.100000000 ERG"), ("", "Approve"), ("", "Reject")] (.sw 0x9000 []),
     .send 0x21 0x15 7 [0, 0, 0, 0, 53, 149, 166, 192, 0, 0, 0, 0, 0, 0, 0, 0, 0, 0, 0, 0, 0] (.sw 0x9000 []),
     .send 0x21 0x18 7 [5, 128, 0, 0, 44, 128, 0, 1, 173, 128, 0, 0, 0, 0, 0, 0, 0, 0, 0, 0, 2] (.sw 0x9000
      []),
     .send 0x21 0x15 7 [0, 0, 0, 0, 0, 15, 66, 64, 0, 0, 0, 0, 0, 0, 0, 0, 0, 0, 0, 0, 0] (.sw 0x9000 []),
     .send 0x21 0x17 7 [] (.sw 0x9000 []),
     .send 0x21 0x20 7 [] .wait,
     .flow [("", "Approve Signing"), ("P2PK Path", "44'/429'/0'/0/0"), ("Transaction Amount",
      "0.100000000 ERG"), ("Transaction Fee", "0.001000000 ERG"), ("", "Approve"), ("", "Reject")] (.sw
      0x9000 [87, 48, 195, 63, 17, 8, 169, 92, 227, 29, 118, 62, 166, 16, 168, 87, 88, 43, 109, 23, 137,
      181, 42, 206, 221, 141, 142, 191, 205, 182, 104, 198, 62, 105, 165, 176, 240, 43, 167, 41, 239,
      181, 144, 37, 84, 220, 207, 217, 34, 128, 218, 196, 193, 6, 0, 109])] = true := by
  decide +kernel

/-! ### can not sign tx with zero inputs (with auth token) -/

example : passes false (.boot testKey)
    [.send 0x21 0x01 2 [0, 5, 128, 0, 0, 44, 128, 0, 1, 173, 128, 0, 0, 0, 0, 0, 0, 0, 0, 0, 0, 0, 90, 192,
      12, 123] .wait,
     .flow [("P2PK Signing", "44'/429'/0'/0/0"), ("Application", "0x5ac00c7b"), ("", "Approve"), ("",
      "Reject")] (.sw 0x9000 [7]),
     .send 0x21 0x10 7 [0, 0, 0, 1, 0, 0, 1] (.sw Sw.badInputCount [])] = true := by
  decide +kernel

/-! ### can not sign tx with zero outputs (with auth token) -/

example : passes false (.boot testKey)
    [.send 0x20 0x01 2 [0, 0, 0, 0, 0, 0, 0, 0, 0, 0, 0, 0, 0, 0, 0, 0, 0, 0, 0, 0, 0, 0, 0, 0, 0, 0, 0, 0,
      0, 0, 0, 0, 0, 0, 0, 0, 0, 0, 59, 154, 202, 0, 0, 0, 0, 36, 0, 0, 0, 0, 0, 0, 0, 0, 0, 90, 192,
      12, 123] .wait,
     .flow [("", "Confirm Attest Input"), ("Application", "0x5ac00c7b"), ("", "Approve"), ("", "Reject")]
      (.sw 0x9000 [7]),
     .send 0x20 0x02 7 [0, 8, 205, 3, 48, 136, 228, 87, 178, 204, 210, 210, 110, 76, 93, 248, 191, 60, 12,
      51, 40, 7, 237, 122, 158, 176, 42, 75, 113, 175, 251, 87, 111, 177, 66, 16] (.sw 0x9000 [1]),
     .send 0x20 0x05 7 [0] (.sw 0x9000 [49, 157, 163, 76, 220, 177, 187, 89, 10, 187, 88, 103, 235, 13, 50,
      52, 197, 151, 202, 139, 81, 223, 2, 68, 180, 237, 191, 222, 127, 254, 3, 147, 1, 0, 0, 0, 0, 0,
      59, 154, 202, 0, 0, 249, 131, 228, 239, 241, 164, 189, 107, 62, 203, 32, 149, 223, 249, 51, 253]),
     .send 0x21 0x01 2 [0, 5, 128, 0, 0, 44, 128, 0, 1, 173, 128, 0, 0, 0, 0, 0, 0, 0, 0, 0, 0, 0, 90, 192,
      12, 123] .wait,
     .flow [("P2PK Signing", "44'/429'/0'/0/0"), ("", "Approve"), ("", "Reject")] (.sw 0x9000 [7]),
     .send 0x21 0x10 7 [0, 1, 0, 1, 0, 0, 0] (.sw Sw.badOutputCount [])] = true := by
  decide +kernel

end Ergo.Vectors
