import Verif.Model.Modes

/-! Sequences of calls on one object, and the objects which a program can come by. -/

namespace Gost

/-- Successive calls of one method on one object: the object afterwards and the concatenation
of the results, or the first exception. -/
def runCalls {σ : Type} (call : σ → PyVal → σ × Res Bytes) : σ → List PyVal → σ × Res Bytes
  | s, [] => (s, .ok [])
  | s, v :: vs =>
    match call s v with
    | (s', .error e) => (s', .error e)
    | (s', .ok out) =>
      match runCalls call s' vs with
      | (s'', .error e) => (s'', .error e)
      | (s'', .ok out') => (s'', .ok (out ++ out'))

/-- Successive calls of a method without a result: the object afterwards and the first exception. -/
def runUpdates {σ : Type} (call : σ → PyVal → σ × Res Unit) : σ → List PyVal → σ × Res Unit
  | s, [] => (s, .ok ())
  | s, v :: vs =>
    match call s v with
    | (s', .error e) => (s', .error e)
    | (s', .ok ()) => runUpdates call s' vs

/-- A call on a cipher object. -/
inductive CipherCall where
  | encrypt (v : PyVal)
  | decrypt (v : PyVal)
  | clear

/-- The results of a sequence of calls on one object; the sequence goes on after an exception. -/
def runHistory {σ : Type} (enc dec : σ → PyVal → σ × Res Bytes) (clr : σ → σ) :
    σ → List CipherCall → List (Res Bytes)
  | _, [] => []
  | s, .encrypt v :: cs => (enc s v).2 :: runHistory enc dec clr (enc s v).1 cs
  | s, .decrypt v :: cs => (dec s v).2 :: runHistory enc dec clr (dec s v).1 cs
  | s, .clear :: cs => runHistory enc dec clr (clr s) cs

/-- `clear()` on a cipher object of any mode. -/
def Cipher.clear : Cipher → Cipher
  | .ecb s => .ecb s.clear
  | .cbc s => .cbc s.clear
  | .cfb s => .cfb s.clear
  | .ofb s => .ofb s.clear
  | .ctr s => .ctr s.clear
  | .mac s => .mac s.clear

/-- The ECB objects which `new` and any later calls, accepted or rejected, can produce. -/
inductive Ecb.Reachable : Ecb → Prop
  | new {alg key mode pad iv dat s} :
      newCipher alg key mode pad iv dat = .ok (.ecb s) → Reachable s
  | encrypt {s} (v) : Reachable s → Reachable (s.encrypt v).1
  | decrypt {s} (v) : Reachable s → Reachable (s.decrypt v).1
  | clear {s} : Reachable s → Reachable s.clear

/-- The CBC objects which `new` and any later calls can produce. -/
inductive Cbc.Reachable : Cbc → Prop
  | new {alg key mode pad iv dat s} :
      newCipher alg key mode pad iv dat = .ok (.cbc s) → Reachable s
  | encrypt {s} (v) : Reachable s → Reachable (s.encrypt v).1
  | decrypt {s} (v) : Reachable s → Reachable (s.decrypt v).1
  | clear {s} : Reachable s → Reachable s.clear

/-- The CFB objects which `new` and any later calls can produce. -/
inductive Cfb.Reachable : Fb → Prop
  | new {alg key mode pad iv dat s} :
      newCipher alg key mode pad iv dat = .ok (.cfb s) → Reachable s
  | encrypt {s} (v) : Reachable s → Reachable (Cfb.encrypt s v).1
  | decrypt {s} (v) : Reachable s → Reachable (Cfb.decrypt s v).1
  | clear {s} : Reachable s → Reachable s.clear

/-- The OFB objects which `new` and any later calls can produce. -/
inductive Ofb.Reachable : Fb → Prop
  | new {alg key mode pad iv dat s} :
      newCipher alg key mode pad iv dat = .ok (.ofb s) → Reachable s
  | encrypt {s} (v) : Reachable s → Reachable (Ofb.encrypt s v).1
  | decrypt {s} (v) : Reachable s → Reachable (Ofb.decrypt s v).1
  | clear {s} : Reachable s → Reachable s.clear

/-- The CTR objects which `new` and any later calls can produce. -/
inductive Ctr.Reachable : Ctr → Prop
  | new {alg key mode pad iv dat s} :
      newCipher alg key mode pad iv dat = .ok (.ctr s) → Reachable s
  | encrypt {s} (v) : Reachable s → Reachable (s.encrypt v).1
  | decrypt {s} (v) : Reachable s → Reachable (s.decrypt v).1
  | clear {s} : Reachable s → Reachable s.clear

/-- The MAC objects which `new` and any later calls can produce. -/
inductive Mac.Reachable : Mac → Prop
  | new {alg key mode pad iv dat s} :
      newCipher alg key mode pad iv dat = .ok (.mac s) → Reachable s
  | update {s} (v) : Reachable s → Reachable (s.update v).1
  | digest {s} (n) : Reachable s → Reachable (s.digest n).1
  | hexdigest {s} (n) : Reachable s → Reachable (s.hexdigest n).1
  | macFinal {s} : Reachable s → Reachable s.macFinal.1
  | clear {s} : Reachable s → Reachable s.clear

end Gost
