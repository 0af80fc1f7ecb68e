import Verif.Model.Modes

/-! Helpers of the known-answer tests. These are tests of the model, not proofs. -/

namespace Gost.Tests

/-- Value of a hexadecimal digit. -/
def hexVal (c : Char) : Nat :=
  if c.toNat < 58 then c.toNat - 48 else c.toNat - 87

/-- Bytes from a lower case hexadecimal string. -/
def hexList : List Char → Bytes
  | a :: b :: r => UInt8.ofNat (hexVal a * 16 + hexVal b) :: hexList r
  | _ => []

def hex (s : String) : Bytes := hexList s.toList

inductive Op where | enc | dec

/-- `new(...)` and one call. -/
def runCipher (alg : String) (key : Bytes) (mode : Int) (pad : Option Int) (iv : Option PyVal)
    (op : Op) (data : Bytes) : Res Bytes :=
  match newCipher alg (.bytearray key) mode pad iv, op with
  | .error e, _ => .error e
  | .ok (.ecb s), .enc => (s.encrypt (.bytearray data)).2
  | .ok (.ecb s), .dec => (s.decrypt (.bytearray data)).2
  | .ok (.cbc s), .enc => (s.encrypt (.bytearray data)).2
  | .ok (.cbc s), .dec => (s.decrypt (.bytearray data)).2
  | .ok (.cfb s), .enc => (Cfb.encrypt s (.bytearray data)).2
  | .ok (.cfb s), .dec => (Cfb.decrypt s (.bytearray data)).2
  | .ok (.ofb s), .enc => (Ofb.encrypt s (.bytearray data)).2
  | .ok (.ofb s), .dec => (Ofb.decrypt s (.bytearray data)).2
  | .ok (.ctr s), .enc => (s.encrypt (.bytearray data)).2
  | .ok (.ctr s), .dec => (s.decrypt (.bytearray data)).2
  | .ok (.mac _), _ => .error .indexError

/-- A MAC object, updates, full digest. -/
def runMac (alg : String) (key : Bytes) (ups : List Bytes) : Res Bytes :=
  match newCipher alg (.bytearray key) modeMac with
  | .ok (.mac s) => do
    let s ← ups.foldlM (fun (s : Mac) u => match s.update (.bytearray u) with
      | (s, .ok ()) => .ok s
      | (_, .error e) => .error e) s
    (s.digest s.obj.blockSize).2
  | _ => .error .indexError

end Gost.Tests
