import Verif.Props.SourceModes
import Verif.Props.MacStore

/-! C102: the class of the MAC in `gost_34_13_2015.py` as it is written answers every sequence of calls as the
specification says, and computes the MAC of GOST R 34.13-2015. -/

namespace Gost.Src

open Spec ModesSrc

/-- What the caller of a method sees: nothing, the bytes which a string stands for, bytes, a known exception, or
anything else. -/
def macSeen : Out Val → Option (Res MacVal)
  | (.ok .none, _) => some (.ok .none)
  | (.ok (.str t), _) => some (.ok (.str (unhex t.toList)))
  | (.ok v, h) => (bytesOf v h).map fun b => .ok (.bytes b)
  | (.error e, _) => (excOf e).map .error

/-- `o.update(v)`, `o.digest(i)`, `o.hexdigest(i)`, `o.mac_final()`, `o.clear()`. -/
inductive SrcMac where
  | update (v : Val)
  | digest (size : Int)
  | hexdigest (size : Int)
  | macFinal
  | clear

/-- The name of the method and its arguments. -/
def SrcMac.meth : SrcMac → String × List Val
  | .update v => ("update", [v])
  | .digest i => ("digest", [.int i])
  | .hexdigest i => ("hexdigest", [.int i])
  | .macFinal => ("mac_final", [])
  | .clear => ("clear", [])

/-- The call with the contents of its argument. -/
def SrcMac.model (h : Heap) : SrcMac → MacCall
  | .update v => .update (pyVal v h)
  | .digest i => .digest i
  | .hexdigest i => .hexdigest i
  | .macFinal => .macFinal
  | .clear => .clear

/-- The argument exists in the memory `h`. -/
def SrcMac.Known (h : Heap) : SrcMac → Prop
  | .update v => ModesSrc.Known v h
  | _ => True

/-- The results of a sequence of calls on the object `o`; exceptions are caught. -/
def macCalls (C : Ctx) (o : Val) : List SrcMac → Heap → List (Option (Res MacVal))
  | [], _ => []
  | c :: cs, h => macSeen (callMeth C o c.meth.1 c.meth.2 h) :: macCalls C o cs (callMeth C o c.meth.1 c.meth.2 h).2

/-- `o = gostcipher.new(alg, key, MODE_MAC, **kwargs)` and the calls on `o`. -/
def macRun (C : Ctx) (alg : String) (key : Val) (kwargs : List (String × Val)) (cs : List SrcMac) (h : Heap) :
    Option (List (Option (Res MacVal))) :=
  match C.call "Modes.new" [.str alg, key, .int modeMac, .dict kwargs] h with
  | (.ok o, h) => some (macCalls C o cs h)
  | _ => none

/-- C102, methods: every method as it is written, on any MAC object, whatever was done with it before, and for any
argument. The object is afterwards the one of the model, also if the call is refused; only the object and its round
keys are changed; `digest` and `hexdigest` change nothing that existed. -/
theorem C102_methods (L n : Nat) (h : Heap) (s : Mac) (me : Nat) (P : List Nat) (r : IsCipher (.mac s) me P h)
    (c : SrcMac) :
    macSeen (callMeth (ctx L (n + 9)) (.ref me) c.meth.1 c.meth.2 h) = some ((c.model h).result s) ∧
    Frame P h (callMeth (ctx L (n + 9)) (.ref me) c.meth.1 c.meth.2 h).2 ∧
    IsCipher (.mac ((c.model h).apply s)) me P (callMeth (ctx L (n + 9)) (.ref me) c.meth.1 c.meth.2 h).2 ∧
    ((∃ i, c = .digest i ∨ c = .hexdigest i) → Ext h (callMeth (ctx L (n + 9)) (.ref me) c.meth.1 c.meth.2 h).2) := by
  obtain ⟨cr, kr, x, a, rfl⟩ := r
  obtain ⟨o, l, g, -⟩ := a.mode.get
  have digest_state : ∀ i, (s.digest i).1 = s := fun i => Mac.digest_state s i
  cases c with
  | update v =>
    have f := mac_update L (n + 3) a (v := v)
    simp only [SrcMac.meth, SrcMac.model, MacCall.result, MacCall.apply]
    rw [show callMeth (ctx L (n + 9)) (.ref me) "update" [v] h =
      call package L (n + 9) "GOST34132015mac.update" [.ref me, v] h by py [g]]
    generalize s.update (pyVal v h) = res at f ⊢
    obtain ⟨s', res⟩ := res
    cases res with
    | ok u =>
      obtain ⟨x', h', f, k, -, a'⟩ := f
      rw [f]
      exact ⟨rfl, k.mono (by simp), ⟨cr, kr, x', a', rfl⟩, by simp⟩
    | error e =>
      obtain ⟨h', f, k, a'⟩ := f
      rw [f]
      exact ⟨by simp only [macSeen, fail, excOf_exc]; rfl, k.mono (by simp), ⟨cr, kr, x, a', rfl⟩, by simp⟩
  | digest i =>
    have f := mac_digest_ok L (n + 2) a i
    simp only [SrcMac.meth, SrcMac.model, MacCall.result, MacCall.apply, digest_state]
    rw [show callMeth (ctx L (n + 9)) (.ref me) "digest" [.int i] h =
      call package L (n + 9) "GOST34132015mac.digest" [.ref me, .int i] h by py [g]]
    generalize (s.digest i).2 = res at f ⊢
    rcases f.cases with ⟨y, w, l', rfl, f', hw, b⟩ | ⟨y, l', rfl, f'⟩
    · rw [f']
      have e := (Ext.refl h).add l'
      exact ⟨by simp only [macSeen, ok, b]; rfl, e.frame _, ⟨cr, kr, x, a.ext e, rfl⟩, fun _ => e⟩
    · rw [f']
      have e := (Ext.refl h).add l'
      exact ⟨by simp only [macSeen, fail, excOf_exc]; rfl, e.frame _, ⟨cr, kr, x, a.ext e, rfl⟩, fun _ => e⟩
  | hexdigest i =>
    have f := mac_hexdigest_ok L (n + 1) a i
    have hs : (s.hexdigest i).1 = s := by rw [Mac.hexdigest_eq, digest_state]
    simp only [SrcMac.meth, SrcMac.model, MacCall.result, MacCall.apply, hs]
    rw [show callMeth (ctx L (n + 9)) (.ref me) "hexdigest" [.int i] h =
      call package L (n + 9) "GOST34132015mac.hexdigest" [.ref me, .int i] h by py [g]]
    generalize (s.hexdigest i).2 = res at f ⊢
    cases res with
    | ok t =>
      obtain ⟨h', f, e⟩ := f
      rw [f]
      exact ⟨by simp only [macSeen, ok, String.toList_ofList]; rfl, e.frame _, ⟨cr, kr, x, a.ext e, rfl⟩, fun _ => e⟩
    | error y =>
      obtain ⟨h', f, e⟩ := f
      rw [f]
      exact ⟨by simp only [macSeen, fail, excOf_exc]; rfl, e.frame _, ⟨cr, kr, x, a.ext e, rfl⟩, fun _ => e⟩
  | macFinal =>
    have f := mac_final_ok L (n + 3) a
    simp only [SrcMac.meth, SrcMac.model, MacCall.result, MacCall.apply]
    rw [show callMeth (ctx L (n + 9)) (.ref me) "mac_final" [] h =
      call package L (n + 9) "GOST34132015mac.mac_final" [.ref me] h by py [g]]
    generalize s.macFinal = res at f ⊢
    obtain ⟨s', res⟩ := res
    cases res with
    | ok b =>
      obtain ⟨w, h', f, k, -, hb, x', a'⟩ := f
      rw [f]
      exact ⟨by simp only [macSeen, ok, hb]; rfl, k.frame.mono (by simp), ⟨cr, kr, x', a', rfl⟩, by simp⟩
    | error e =>
      obtain ⟨h', f, k, x', a'⟩ := f
      rw [f]
      exact ⟨by simp only [macSeen, fail, excOf_exc]; rfl, k.frame.mono (by simp), ⟨cr, kr, x', a', rfl⟩, by simp⟩
  | clear =>
    obtain ⟨h', f, k, a'⟩ := C101_clear L n h (.mac s) me _ ⟨cr, kr, x, a, rfl⟩
    simp only [SrcMac.meth, SrcMac.model, MacCall.result, MacCall.apply]
    rw [f]
    exact ⟨rfl, k, a', by simp⟩

/-- C102, sequences: any calls in any order on one object, also refused ones, with arguments which exist in the
memory `h0` before the object. -/
theorem C102_calls (L n : Nat) (me : Nat) (P : List Nat) (h0 : Heap) (hP : ∀ p ∈ P, h0.length ≤ p) :
    ∀ (cs : List SrcMac) (s : Mac) (h : Heap), Frame P h0 h → IsCipher (.mac s) me P h →
      (∀ x ∈ cs, x.Known h0) → macCalls (ctx L (n + 9)) (.ref me) cs h =
        (MacCall.results s (cs.map (·.model h0))).map some := by
  intro cs
  induction cs with
  | nil => intros; rfl
  | cons c cs ih =>
    intro s h k a hx
    obtain ⟨e1, e2, e3, -⟩ := C102_methods L n h s me P a c
    have hm : c.model h = c.model h0 := by
      cases c with
      | update v => exact congrArg MacCall.update (frame_pyVal k (hx (.update v) (by simp)) hP)
      | _ => rfl
    rw [hm] at e1 e3
    simp only [macCalls, List.map_cons, MacCall.results]
    rw [e1, ih _ _ (k.trans e2) e3 fun y hy => hx y (by simp [hy])]

/-- The argument `data` of the constructor. -/
def MacData (l : List (String × Val)) (h : Heap) (d : Bytes) : Prop :=
  (findAttr "data" l = none ∧ d = []) ∨ ∃ v, findAttr "data" l = some v ∧ bytesOf v h = some d

variable (L n : Nat) (h : Heap) (a : Alg) (kv : Val) (key : Bytes) (ek : bytesOf kv h = some key)
  (hl : key.length = 32) (l : List (String × Val)) (k : KwKnown l h) (pad : Int) (hp : PadArg l pad)

include ek hl k hp

/-- C102, specification: any calls on a new object as they are written; the data of the constructor must be empty or
hold at least one block (otherwise the constructor fails, see C17). -/
theorem C102_history (d : Bytes) (hd : MacData l h d) (hlen : d = [] ∨ a.blockSize ≤ d.length) (cs : List SrcMac)
    (hx : ∀ x ∈ cs, x.Known h) :
    macRun (ctx L (n + 9)) a.name kv l cs h =
      some ((macAnswers (fun c => if c then a.cleared else a.encrypt key)
        (macKey1 (a.encrypt key) a.blockSize) (macKey2 (a.encrypt key) a.blockSize) a.blockSize
        (if d = [] then MacPast.new
          else ⟨(blocks a.blockSize d).map fun b => (false, b), rest a.blockSize d, false, false⟩)
        (cs.map fun c => (c.model h).op)).map fun r => some (macRes r)) := by
  obtain ⟨p, h1, h2⟩ := kwArgs k hp
  have hs : ∃ s, newCipher a.name (pyVal kv h) modeMac p ((findAttr "init_vect" l).map (pyVal · h))
        ((findAttr "data" l).map (pyVal · h)) = .ok (.mac s) ∧ ∀ cs : List MacCall, MacCall.results s cs =
        (macAnswers (fun c => if c then a.cleared else a.encrypt key)
          (macKey1 (a.encrypt key) a.blockSize) (macKey2 (a.encrypt key) a.blockSize) a.blockSize
          (if d = [] then MacPast.new
            else ⟨(blocks a.blockSize d).map fun b => (false, b), rest a.blockSize d, false, false⟩)
          (cs.map MacCall.op)).map macRes := by
    rcases hd with ⟨e, rfl⟩ | ⟨v, e, hv⟩
    · obtain ⟨s, e1, e2⟩ := C72_history a (pyVal kv h) (.bytearray []) key [] ((pyVal_data kv h).trans ek) hl rfl
        hlen p ((findAttr "init_vect" l).map (pyVal · h))
      refine ⟨s, ?_, e2⟩
      rw [e, ← e1]
      rfl
    · obtain ⟨s, e1, e2⟩ := C72_history a (pyVal kv h) (pyVal v h) key d ((pyVal_data kv h).trans ek) hl
        ((pyVal_data v h).trans hv) hlen p ((findAttr "init_vect" l).map (pyVal · h))
      refine ⟨s, ?_, e2⟩
      rw [e, ← e1]
      rfl
  obtain ⟨s, e1, e2⟩ := hs
  have := C101_new L (n + 1) h a.name kv (known_bytes ek) modeMac l p _ _ h2
  rw [e1] at this
  obtain ⟨me, P, h', f, x, h3, h4, q⟩ := this
  unfold macRun
  rw [ctx_call, f]
  refine congrArg some ?_
  rw [C102_calls L n me P h h4 cs s h' (x.frame _) q hx, e2, List.map_map, List.map_map]
  rfl

/-- C102, standard: `gostcipher.new(alg, key, MODE_MAC, data=data).digest(i)` as it is written is the MAC of
GOST R 34.13-2015 of the data, cut to `i` bytes. -/
theorem C102_standard (d : Bytes) (hd : MacData l h d) (hlen : a.blockSize ≤ d.length) (i : Nat)
    (hi : i ≤ a.blockSize) :
    macRun (ctx L (n + 9)) a.name kv l [.digest i] h =
      some [some (.ok (.bytes ((omac (a.encrypt key) a.blockSize d).take i)))] := by
  have h0 : 0 < a.blockSize := Alg.blockSize_pos a
  have hne : d ≠ [] := by rintro rfl; simp at hlen; omega
  rw [C102_history L n h a kv key ek hl l k pad hp d hd (Or.inr hlen) _ (by simp [SrcMac.Known]), if_neg hne]
  simp only [List.map_cons, List.map_nil, SrcMac.model, MacCall.op, macAnswers, macCall]
  rw [if_neg (by omega), C72_standard (a.encrypt key) _ rfl, if_pos (by omega), Int.toNat_natCast]
  rfl

omit ek hl k hp

/-! Values which meet the hypotheses. -/

example : bytesOf (.ref 0) [.bytearray (List.replicate 32 7), .bytearray (List.replicate 21 1)] = some (List.replicate 32 7) ∧
    (List.replicate 32 (7 : UInt8)).length = 32 ∧
    KwKnown [("data", .ref 1)] [.bytearray (List.replicate 32 7), .bytearray (List.replicate 21 1)] ∧
    PadArg [("data", .ref 1)] padMode1 ∧
    MacData [("data", .ref 1)] [.bytearray (List.replicate 32 7), .bytearray (List.replicate 21 1)] (List.replicate 21 1) ∧
    Alg.kuznechik.blockSize ≤ (List.replicate 21 (1 : UInt8)).length ∧
    (∀ x ∈ [SrcMac.digest 8, .update (.bytes (List.replicate 40 3)), .update (.int 5), .hexdigest 16, .macFinal, .clear],
      x.Known [.bytearray (List.replicate 32 7), .bytearray (List.replicate 21 1)]) := by
  refine ⟨rfl, rfl, ?_, Or.inl ⟨rfl, rfl⟩, Or.inr ⟨_, rfl, rfl⟩, by decide, ?_⟩
  · intro k v e r hr
    subst hr
    by_cases hk : "data" = k <;> simp [findAttr, hk] at e
    subst e
    simp
  · intro x hx
    simp only [List.mem_cons, List.not_mem_nil, or_false] at hx
    rcases hx with rfl | rfl | rfl | rfl | rfl | rfl <;> simp [SrcMac.Known, Known]

end Gost.Src
