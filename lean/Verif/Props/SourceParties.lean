import Verif.Props.SourceDialog
import Verif.Props.SourceTogether
import Verif.Props.Dialog

/-! C130, two uses of it: two parties which exchange messages, and a key which is sent to the other party. -/

namespace Gost.Src
open Spec ModesSrc

/-- The parties 0 and 1 exchange messages. Party 0 sends if the mark of a message is true, else party 1. The first step
has the number `k`. -/
def exchange : Nat → List (Bool × Val) → List Step
  | _, [] => []
  | k, (true, v) :: ms => .encrypt 0 (.given v) :: .decrypt 1 (.result k) :: exchange (k + 2) ms
  | k, (false, v) :: ms => .encrypt 1 (.given v) :: .decrypt 0 (.result k) :: exchange (k + 2) ms

/-- What is shown: the bytes which are sent, and the bytes which are received. -/
def sentReceived (out : List (Bytes × Bytes)) : List Shown := out.flatMap fun x => [.bytes x.1, .bytes x.2]

/-- The messages with their contents. -/
def contents (h0 : Heap) (ms : List (Bool × Val)) : List (Bool × PyVal) := ms.map fun m => (m.1, pyVal m.2 h0)

theorem exchange_model {σ : Type} {f : σ → Cipher} {enc dec : σ → PyVal → σ × Res Bytes}
    (he : ∀ s v, encryptOf (f s) v = (enc s v).map f id) (hd : ∀ s v, decryptOf (f s) v = (dec s v).map f id)
    {P : Bytes → Bytes → Prop} (h0 : Heap) (ms : List (Bool × Val)) :
    ∀ (a b : σ) (k : Nat) (rs : List (Option Bytes)), rs.length = k →
      InStep P (contents h0 ms) (dialog enc dec a b (contents h0 ms)) →
      ∃ out, out.length = ms.length ∧ runModel h0 (exchange k ms) [f a, f b] rs = sentReceived out ∧
        ∀ x ∈ ms.zip out, ∃ d, bytesOf x.1.2 h0 = some d ∧ P d x.2.2 := by
  induction ms with
  | nil => exact fun a b k rs _ _ => ⟨[], rfl, rfl, by simp⟩
  | cons m ms ih =>
    rintro a b k rs rfl ⟨i1, i2, i3⟩
    obtain ⟨w, v⟩ := m
    have last : ∀ b : Bytes, (rs ++ [some b]).getD rs.length none = some b := fun b => by
      rw [List.getD_eq_getElem?_getD, List.getElem?_concat_length]; rfl
    cases w with
    | true =>
      simp only [contents, List.map_cons, dialog] at i1 i2 i3
      cases e : enc a (pyVal v h0) with
      | mk a' r =>
        rw [e] at i1 i2 i3
        cases r with
        | error x =>
          obtain ⟨d, o, -, h2, -⟩ := i3 _ (by rw [List.zip_cons_cons]; exact List.mem_cons_self)
          cases h2
        | ok ct =>
          simp only [List.zip_cons_cons, List.mem_cons, forall_eq_or_imp] at i3
          obtain ⟨⟨d, o, h1, h2, h3⟩, i3⟩ := i3
          obtain ⟨out, j1, j2, j3⟩ := ih a' (dec b (.bytearray ct)).1 (rs.length + 2) (rs ++ [some ct] ++ [some o])
            (by simp) ⟨i1, by simpa [contents] using i2, i3⟩
          refine ⟨(ct, o) :: out, by simp [j1], ?_, fun x hx => ?_⟩
          · simp only [exchange, runModel, Arg.py, he, hd, e, Prod.map, id, shownRes, keptRes, List.getElem?_cons_zero,
              List.getElem?_cons_succ, List.set_cons_zero, List.set_cons_succ, last, h2]
            rw [j2]
            rfl
          · rw [List.zip_cons_cons] at hx
            rcases List.mem_cons.1 hx with rfl | hx
            · exact ⟨d, by rw [← pyVal_data]; exact h1, h3⟩
            · exact j3 x hx
    | false =>
      simp only [contents, List.map_cons, dialog] at i1 i2 i3
      cases e : enc b (pyVal v h0) with
      | mk b' r =>
        rw [e] at i1 i2 i3
        cases r with
        | error x =>
          obtain ⟨d, o, -, h2, -⟩ := i3 _ (by rw [List.zip_cons_cons]; exact List.mem_cons_self)
          cases h2
        | ok ct =>
          simp only [List.zip_cons_cons, List.mem_cons, forall_eq_or_imp] at i3
          obtain ⟨⟨d, o, h1, h2, h3⟩, i3⟩ := i3
          obtain ⟨out, j1, j2, j3⟩ := ih (dec a (.bytearray ct)).1 b' (rs.length + 2) (rs ++ [some ct] ++ [some o])
            (by simp) ⟨i1, by simpa [contents] using i2, i3⟩
          refine ⟨(ct, o) :: out, by simp [j1], ?_, fun x hx => ?_⟩
          · simp only [exchange, runModel, Arg.py, he, hd, e, Prod.map, id, shownRes, keptRes, List.getElem?_cons_zero,
              List.getElem?_cons_succ, List.set_cons_zero, List.set_cons_succ, last, h2]
            rw [j2]
            rfl
          · rw [List.zip_cons_cons] at hx
            rcases List.mem_cons.1 hx with rfl | hx
            · exact ⟨d, by rw [← pyVal_data]; exact h1, h3⟩
            · exact j3 x hx

theorem contents_data {h0 : Heap} {ms : List (Bool × Val)} (hms : ∀ m ∈ ms, ∃ d, bytesOf m.2 h0 = some d) :
    ∀ m ∈ contents h0 ms, m.2.data? ≠ none := by
  intro m hm
  obtain ⟨x, hx, rfl⟩ := List.mem_map.1 hm
  obtain ⟨d, e⟩ := hms x hx
  rw [pyVal_data, e]
  exact Option.some_ne_none d

/-- The model of two parties with one key and vector. -/
theorem parties_model {a : Alg} {pad : Int} {iv : Bytes} {mode : Int} {R : Bytes → Bytes → Prop} (m : Mode a pad iv mode R)
    (kv ivv : PyVal) (key : Bytes) (hk : kv.data? = some key) (hl : key.length = 32) (hi : ivv.data? = some iv) (h0 : Heap)
    (ms : List (Bool × Val)) (hms : ∀ m ∈ ms, ∃ d, bytesOf m.2 h0 = some d) :
    ∃ c, newCipher a.name kv mode (some pad) (some ivv) none = .ok c ∧ ∀ (k : Nat) (rs : List (Option Bytes)),
      rs.length = k → ∃ out, out.length = ms.length ∧ runModel h0 (exchange k ms) [c, c] rs = sentReceived out ∧
        ∀ x ∈ ms.zip out, ∃ d, bytesOf x.1.2 h0 = some d ∧ R d x.2.2 := by
  have hms := contents_data hms
  cases m with
  | ecb hp =>
    obtain ⟨o, D, h1, -, h3, -⟩ := new_ecb a kv key hk hl pad hp (some ivv) none
    refine ⟨_, h1, fun k rs hrs => ?_⟩
    refine exchange_model (f := .ecb) (fun _ _ => rfl) (fun _ _ => rfl) h0 ms _ _ k rs hrs ?_
    have := C127_ecb _ (.new h1) _ hms
    rwa [h3] at this
  | cbc hp hne hv =>
    obtain ⟨o, D, h1, -, h3, -⟩ := new_cbc a kv ivv key iv hk hl hi hv pad hp none
    refine ⟨_, h1, fun k rs hrs => ?_⟩
    refine exchange_model (f := .cbc) (fun _ _ => rfl) (fun _ _ => rfl) h0 ms _ _ k rs hrs ?_
    have := C127_cbc _ (.new h1) (List.ne_nil_of_length_pos hne) _ hms
    rwa [h3] at this
  | cfb hne hv =>
    obtain ⟨o, D, h1, -⟩ := new_cfb a kv ivv key iv hk hl hi hv (some pad) none
    refine ⟨_, h1, fun k rs hrs => ?_⟩
    obtain ⟨out, j1, j2, j3⟩ := exchange_model (f := .cfb) (fun _ _ => rfl) (fun _ _ => rfl) h0 ms _ _ k rs hrs
      (C127_cfb _ (.new h1) (List.ne_nil_of_length_pos hne) _ hms)
    exact ⟨out, j1, j2, fun x hx => by obtain ⟨d, e, rfl⟩ := j3 x hx; exact ⟨_, e, rfl⟩⟩
  | ofb hne hv =>
    obtain ⟨o, D, h1, -⟩ := new_ofb a kv ivv key iv hk hl hi hv (some pad) none
    refine ⟨_, h1, fun k rs hrs => ?_⟩
    obtain ⟨out, j1, j2, j3⟩ := exchange_model (f := .ofb) (fun _ _ => rfl) (fun _ _ => rfl) h0 ms _ _ k rs hrs
      (C127_ofb _ (.new h1) (List.ne_nil_of_length_pos hne) _ hms)
    exact ⟨out, j1, j2, fun x hx => by obtain ⟨d, e, rfl⟩ := j3 x hx; exact ⟨_, e, rfl⟩⟩
  | ctr hv =>
    obtain ⟨o, D, h1, -⟩ := new_ctr a kv ivv key iv hk hl hi hv (some pad) none
    refine ⟨_, h1, fun k rs hrs => ?_⟩
    obtain ⟨out, j1, j2, j3⟩ := exchange_model (f := .ctr) (fun _ _ => rfl) (fun _ _ => rfl) h0 ms _ _ k rs hrs
      (C127_ctr _ (.new h1) _ hms)
    exact ⟨out, j1, j2, fun x hx => by obtain ⟨d, e, rfl⟩ := j3 x hx; exact ⟨_, e, rfl⟩⟩

theorem bytesOf_refs {v : Val} {h : Heap} {b : Bytes} (e : bytesOf v h = some b) : ∀ r ∈ v.refs, r < h.length := by
  intro r hr
  cases v with
  | ref s =>
    simp only [Val.refs, List.mem_singleton] at hr
    subst hr
    exact (List.getElem?_eq_some_iff.1 (Streebog.get_of_bytes e)).1
  | bytes b => simp [Val.refs] at hr
  | _ => simp [bytesOf] at e

theorem Mode.ne_mac {a : Alg} {pad : Int} {iv : Bytes} {mode : Int} {R : Bytes → Bytes → Prop} (m : Mode a pad iv mode R) :
    mode ≠ modeMac := by
  cases m <;> decide

theorem exchange_fits {h0 : Heap} {ms : List (Bool × Val)} (hms : ∀ m ∈ ms, ∃ d, bytesOf m.2 h0 = some d) :
    ∀ k, ∀ s ∈ exchange k ms, s.Fits h0 := by
  induction ms with
  | nil => intro k s hs; cases hs
  | cons m ms ih =>
    intro k s hs
    obtain ⟨w, v⟩ := m
    obtain ⟨d, e⟩ := hms (w, v) List.mem_cons_self
    have ih := ih (fun m hm => hms m (List.mem_cons_of_mem _ hm)) (k + 2)
    cases w <;> simp only [exchange, List.mem_cons] at hs <;> rcases hs with rfl | rfl | hs
    · exact bytesOf_refs e
    · trivial
    · exact ih s hs
    · exact bytesOf_refs e
    · trivial
    · exact ih s hs

section
variable (L n : Nat) (h0 : Heap) (cl : Closed h0) {a : Alg} {pad : Int} {iv : Bytes} {mode : Int}
  {R : Bytes → Bytes → Prop} (m : Mode a pad iv mode R) {v1 v2 : Val} (e1 : bytesOf v1 h0 = some iv)
  (e2 : bytesOf v2 h0 = some iv)

include cl m e1 e2

/-- C130, two parties: two objects with the same key and vector, and any sequence of messages in both directions. Every
message is received, with its padding in ECB and CBC. -/
theorem C130_parties {key : Bytes} (hl : key.length = 32) {k1 k2 : Val} (ek : bytesOf k1 h0 = some key)
    (ek2 : bytesOf k2 h0 = some key) (ms : List (Bool × Val)) (hms : ∀ m ∈ ms, ∃ d, bytesOf m.2 h0 = some d) :
    ∃ out, out.length = ms.length ∧
      runText (ctx L (n + 9)) (.make a.name (.given k1) mode (some pad) (some (.given v1)) ::
        .make a.name (.given k2) mode (some pad) (some (.given v2)) :: exchange 2 ms) [] [] h0 =
        .object :: .object :: sentReceived out ∧
      ∀ x ∈ ms.zip out, ∃ d, bytesOf x.1.2 h0 = some d ∧ R d x.2.2 := by
  rw [C130_program L n h0 cl]
  · obtain ⟨c, f1, f2⟩ := parties_model m (pyVal k1 h0) (pyVal v1 h0) key (by rw [pyVal_data, ek]) hl
      (by rw [pyVal_data, e1]) h0 ms hms
    have f1' : newCipher a.name (pyVal k2 h0) mode (some pad) (some (pyVal v2 h0)) none = .ok c := by
      rw [← f1]
      exact newCipher_data a.name mode (some pad) (by rw [pyVal_data, ek2]) (by rw [pyVal_data, ek])
        (by rw [pyVal_data, e2]) (by rw [pyVal_data, e1])
    obtain ⟨out, j1, j2, j3⟩ := f2 2 [none, none] rfl
    refine ⟨out, j1, ?_, j3⟩
    simp only [runModel, Arg.py, Option.map_some, f1, f1', List.nil_append, List.cons_append]
    rw [j2]
  · intro s hs
    simp only [List.mem_cons] at hs
    rcases hs with rfl | rfl | hs
    · exact ⟨bytesOf_refs ek, m.ne_mac, fun a e => by cases e; exact bytesOf_refs e1⟩
    · exact ⟨bytesOf_refs ek2, m.ne_mac, fun a e => by cases e; exact bytesOf_refs e2⟩
    · exact exchange_fits hms 2 s hs

end

/-- The result of a mode without padding. -/
theorem Mode.exact {a : Alg} {pad : Int} {iv : Bytes} {mode : Int} {R : Bytes → Bytes → Prop} (m : Mode a pad iv mode R)
    (hm : mode = modeCfb ∨ mode = modeOfb ∨ mode = modeCtr) {d o : Bytes} (h : R d o) : o = d := by
  cases m with
  | ecb => rcases hm with hm | hm | hm <;> exact absurd hm (by decide)
  | cbc => rcases hm with hm | hm | hm <;> exact absurd hm (by decide)
  | _ => exact h

/-- The program of two parties which have the key `k` and exchange a key `s` for the messages: party 0 encrypts it, party 1
decrypts it; both make objects with it, party 1 with the bytes which it has received, and party 0 sends a message. -/
def keySent (a b : String) (k s v w msg : Val) (mode mode' pad : Int) : List Step :=
  [.make a (.given k) mode (some pad) (some (.given v)), .make a (.given k) mode (some pad) (some (.given v)),
   .encrypt 0 (.given s), .decrypt 1 (.result 2),
   .make b (.given s) mode' (some pad) (some (.given w)), .make b (.result 3) mode' (some pad) (some (.given w)),
   .encrypt 2 (.given msg), .decrypt 3 (.result 6)]

/-- C130, a key which is sent: the message is received with the key which party 1 got from party 0. -/
theorem C130_key (L n : Nat) (h0 : Heap) (cl : Closed h0) {a b : Alg} {pad mode mode' : Int} {iv iv' : Bytes}
    {R R' : Bytes → Bytes → Prop} (m : Mode a pad iv mode R) (hm : mode = modeCfb ∨ mode = modeOfb ∨ mode = modeCtr)
    (m' : Mode b pad iv' mode' R') {k s v w msg : Val} {key skey d : Bytes} (ek : bytesOf k h0 = some key)
    (hl : key.length = 32) (es : bytesOf s h0 = some skey) (hs : skey.length = 32) (ev : bytesOf v h0 = some iv)
    (ew : bytesOf w h0 = some iv') (em : bytesOf msg h0 = some d) :
    ∃ x ct out, R' d out ∧ runText (ctx L (n + 9)) (keySent a.name b.name k s v w msg mode mode' pad) [] [] h0 =
      [.object, .object, .bytes x, .bytes skey, .object, .object, .bytes ct, .bytes out] := by
  rw [C130_program L n h0 cl]
  · obtain ⟨c, x, o, f1, -, f2, f3, f4⟩ := mode_model m (pyVal k h0) (pyVal v h0) (pyVal s h0) key skey
      (by rw [pyVal_data, ek]) hl (by rw [pyVal_data, ev]) (by rw [pyVal_data, es])
    obtain rfl := m.exact hm f3
    obtain ⟨c', ct, out, g1, -, g2, g3, g4⟩ := mode_model m' (pyVal s h0) (pyVal w h0) (pyVal msg h0) o d
      (by rw [pyVal_data, es]) hs (by rw [pyVal_data, ew]) (by rw [pyVal_data, em])
    have g1' : newCipher b.name (.bytearray o) mode' (some pad) (some (pyVal w h0)) none = .ok c' := by
      rw [← g1]
      exact newCipher_data b.name mode' (some pad) rfl (by rw [pyVal_data, es])
        (by rw [pyVal_data, ew]) (by rw [pyVal_data, ew])
    have f4 := f4 (.bytearray x) rfl
    have g4 := g4 (.bytearray ct) rfl
    refine ⟨x, ct, out, g3, ?_⟩
    simp only [keySent, runModel, Arg.py, Option.map_some, f1, List.nil_append, List.cons_append, f2, f4, g1, g1', g2, g4,
      List.getElem?_cons_zero, List.getElem?_cons_succ, List.set_cons_zero, List.set_cons_succ, shownRes, keptRes,
      List.getD_cons_succ, List.getD_cons_zero]
  · intro t ht
    simp only [keySent, List.mem_cons, List.not_mem_nil, or_false] at ht
    rcases ht with rfl | rfl | rfl | rfl | rfl | rfl | rfl | rfl
    · exact ⟨bytesOf_refs ek, m.ne_mac, fun a e => by cases e; exact bytesOf_refs ev⟩
    · exact ⟨bytesOf_refs ek, m.ne_mac, fun a e => by cases e; exact bytesOf_refs ev⟩
    · exact bytesOf_refs es
    · trivial
    · exact ⟨bytesOf_refs es, m'.ne_mac, fun a e => by cases e; exact bytesOf_refs ew⟩
    · exact ⟨trivial, m'.ne_mac, fun a e => by cases e; exact bytesOf_refs ew⟩
    · exact bytesOf_refs em
    · trivial

/-! A case: the key is the byte array of cell 1, the message that of cell 2; CTR and Magma for the key, CBC and
Kuznechik for the message. -/

theorem exClosed : Closed [.list [], .bytearray Ex.key, .bytearray [9, 9, 9]] := by
  refine ⟨by decide, fun r o e s hs => ?_⟩
  match r with
  | 0 | 1 | 2 => cases e; cases hs
  | r + 3 => cases e

example (L n : Nat) : ∃ x ct out, Spec.MarkPadded 16 [9, 9, 9] out ∧
    runText (ctx L (n + 9)) (keySent "magma" "kuznechik" (.ref 1) (.bytes (Ex.count 7 32)) (.bytes (Ex.count 1 4))
      (.bytes (Ex.count 3 32)) (.ref 2) modeCtr modeCbc padMode2) [] [] [.list [], .bytearray Ex.key, .bytearray [9, 9, 9]] =
      [.object, .object, .bytes x, .bytes (Ex.count 7 32), .object, .object, .bytes ct, .bytes out] := by
  obtain ⟨x, ct, out, h1, h2⟩ := C130_key L n _ exClosed (a := .magma) (b := .kuznechik) (pad := padMode2)
    (iv := Ex.count 1 4) (iv' := Ex.count 3 32) (.ctr (by decide)) (by decide) (.cbc (.inr rfl) (by decide) (by decide))
    (k := .ref 1) (s := .bytes (Ex.count 7 32)) (v := .bytes (Ex.count 1 4)) (w := .bytes (Ex.count 3 32)) (msg := .ref 2)
    rfl (by decide) rfl (by decide) rfl rfl rfl
  exact ⟨x, ct, out, h1.2 rfl, h2⟩

/-- Two parties with Kuznechik in OFB mode, messages of 20, 0 and 3 bytes. -/
example (L n : Nat) : ∃ c1 c2 c3,
    runText (ctx L (n + 9)) (.make "kuznechik" (.given (.ref 1)) modeOfb (some padMode1) (some (.given (.bytes (Ex.count 9 32)))) ::
      .make "kuznechik" (.given (.ref 1)) modeOfb (some padMode1) (some (.given (.bytes (Ex.count 9 32)))) ::
      exchange 2 [(true, .bytes (Ex.count 1 20)), (false, .bytes []), (false, .ref 2)]) [] []
      [.list [], .bytearray Ex.key, .bytearray [9, 9, 9]] =
      [.object, .object, .bytes c1, .bytes (Ex.count 1 20), .bytes c2, .bytes [], .bytes c3, .bytes [9, 9, 9]] := by
  obtain ⟨out, h1, h2, h3⟩ := C130_parties L n _ exClosed (a := .kuznechik) (pad := padMode1) (iv := Ex.count 9 32)
    (.ofb (by decide) (by decide)) (v1 := .bytes (Ex.count 9 32)) (v2 := .bytes (Ex.count 9 32)) rfl rfl (key := Ex.key)
    (by decide) (k1 := .ref 1) (k2 := .ref 1) rfl rfl [(true, .bytes (Ex.count 1 20)), (false, .bytes []), (false, .ref 2)]
    (by
      intro m hm
      simp only [List.mem_cons, List.not_mem_nil, or_false] at hm
      rcases hm with rfl | rfl | rfl <;> exact ⟨_, rfl⟩)
  match out, h1, h2, h3 with
  | [(a, a'), (b, b'), (c, c')], _, h2, h3 =>
    simp only [List.zip_cons_cons, List.zip_nil_left, List.mem_cons, forall_eq_or_imp, List.not_mem_nil, or_false] at h3
    obtain ⟨⟨d1, e1, rfl⟩, ⟨d2, e2, rfl⟩, h3⟩ := h3
    obtain ⟨d3, e3, rfl⟩ := h3 _ rfl
    cases e1
    cases e2
    cases e3
    exact ⟨a, b, c, h2⟩

end Gost.Src
