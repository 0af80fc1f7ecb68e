import Verif.Props.SourceModes
import Verif.Props.SourceHmac
import Verif.Props.SourcePbkdf
import Verif.Props.SourceRandom

/-! C109: the destructors `__del__` as they are written. The semantics of the text does not call them by itself; by C108
a call of one at any time changes nothing for programs which do not share the object. -/

namespace Gost.Src

open ModesSrc HmacSrc PbkdfSrc RandomSrc

/-- `clear` on an object with fewer round keys than rounds: all of them are overwritten, then the index is out of
range. -/
theorem Kuz.clear_short (L n : Nat) {self kr : Nat} {h : Heap} {ks : List Bytes} (o : Kuz.Rep self kr h ks)
    (hk : ks.length < 10) :
    ∃ h', call package L (n + 2) "GOST34122015Kuznechik.clear" [.ref self] h = fail .index h' ∧
      Frame [kr] h h' ∧ Kuz.Rep self kr h' (Gost.Kuz.clear ks) := by
  obtain ⟨attrs, vs, o1, o2, o3, o4⟩ := o
  have hne : self ≠ kr := ne_of_get o1 o3 (by simp)
  rw [call_succ Fn.GOST34122015Kuznechik.clear]
  py [GOST34122015Kuznechik.m_clear]
  rw [show pyRange 0 10 1 = (List.range 10).map fun k : Nat => Val.int (k : Int) from pyRange_from 0 10]
  generalize hl : forLoop _ _ _ _ _ = o
  have := for_foldlM (σ := Unit) _ hl (fun _ i => if i < ks.length then .ok () else .error .indexError)
    (fun k _ env h' => k ≤ ks.length ∧ env "self" = some (.ref self) ∧ Frame [kr] h h' ∧
      ∃ vs', h'[kr]? = some (.list vs') ∧ BytesList vs' h' ((ks.take k).map zeroFill ++ ks.drop k))
    (fun h' => Frame [kr] h h' ∧ ∃ vs', h'[kr]? = some (.list vs') ∧ BytesList vs' h' (ks.map zeroFill)) (s := ())
    (by
      rintro k i _ env h1 hki ⟨hk0, i0, i1, vs', i2, i3⟩
      obtain rfl : k = i := by
        obtain ⟨_, e⟩ := List.getElem?_eq_some_iff.mp hki
        simpa using e
      have hself : h1[self]? = some (.inst "GOST34122015Kuznechik" attrs) :=
        i1.get o1 (by simpa using hne)
      by_cases hlt : k < ks.length
      · rw [if_pos hlt]
        have hlen : k < ((ks.take k).map zeroFill ++ ks.drop k).length := by simp; omega
        obtain ⟨w, hw, hb⟩ := i3.getNat hlen
        have hx : ((ks.take k).map zeroFill ++ ks.drop k)[k] = ks[k] := by
          rw [List.getElem_append_right (by simp; omega)]
          simp [Nat.min_eq_left (show k ≤ ks.length by omega)]
        rw [hx] at hb
        obtain ⟨m, l, e1, hm, hb1⟩ := (zero_fill_ok L n hb).elim
        refine ⟨_, _, by
          py [i0, hself, o2, getItem_listNat i2 hw, e1,
            setItem_list (get_mono i2 l) (show k < vs'.length by rw [i3.length]; exact hlen)]
          rfl, _, rfl, hlt, by py [i0], (i1.add l).set (by simp) _, _, get_set_same _ (by py [i2]), ?_⟩
        rw [← take_map_set zeroFill (by omega)]
        exact ((i3.mono l).setAt k hb1).set (by py [i2]) (by py [])
      · rw [if_neg hlt]
        have hl := i3.length
        rw [List.take_of_length_le (by omega), List.drop_of_length_le (by omega), List.append_nil] at i3
        have hg : getItem (.ref kr) (.int (k : Int)) h1 = fail .index h1 := by
          rw [getItem_list i2]
          rw [Gost.pyGet_out vs' k (by have := i3.length; rw [List.length_map] at this; omega)]
        refine ⟨_, ?_, i1, vs', i2, i3⟩
        py [i0, hself, o2, hg]
        rfl)
    ⟨Nat.zero_le _, by py [], .refl _ _, vs, o3, by simpa using o4⟩
  have hm : (List.range 10).foldlM (m := Res) (fun (_ : Unit) i => if i < ks.length then .ok () else .error .indexError) () =
      .error .indexError := by
    have : ∀ l : List Nat, (∃ i ∈ l, ks.length ≤ i) →
        l.foldlM (m := Res) (fun (_ : Unit) i => if i < ks.length then .ok () else .error .indexError) () =
          .error .indexError := by
      intro l
      induction l with
      | nil => rintro ⟨i, hi, -⟩; cases hi
      | cons a l ih =>
        rintro ⟨i, hi, hle⟩
        rw [List.foldlM_cons]
        by_cases ha : a < ks.length
        · rw [if_pos ha]
          rcases List.mem_cons.mp hi with rfl | hi
          · omega
          · exact ih ⟨i, hi, hle⟩
        · rw [if_neg ha]; rfl
    exact this _ ⟨ks.length, by simpa using hk, Nat.le_refl _⟩
  rw [hm] at this
  obtain ⟨h', rfl, i1, vs', i2, i3⟩ := this
  py []
  exact ⟨_, rfl, i1, attrs, vs', i1.get o1 (by simpa using hne), o2, i2, i3⟩

/-- `clear` on an object with fewer round keys than rounds: all of them are overwritten, then the index is out of
range. -/
theorem Magma.clear_short (L n : Nat) {self kr : Nat} {h : Heap} {ks : List Bytes} (o : Magma.Rep self kr h ks)
    (hk : ks.length < 32) :
    ∃ h', call package L (n + 2) "GOST34122015Magma.clear" [.ref self] h = fail .index h' ∧
      Frame [kr] h h' ∧ Magma.Rep self kr h' (Gost.Magma.clear ks) := by
  obtain ⟨attrs, vs, o1, o2, o3, o4⟩ := o
  have hne : self ≠ kr := ne_of_get o1 o3 (by simp)
  rw [call_succ Fn.GOST34122015Magma.clear]
  py [GOST34122015Magma.m_clear]
  rw [show pyRange 0 32 1 = (List.range 32).map fun k : Nat => Val.int (k : Int) from pyRange_from 0 32]
  generalize hl : forLoop _ _ _ _ _ = o
  have := for_foldlM (σ := Unit) _ hl (fun _ i => if i < ks.length then .ok () else .error .indexError)
    (fun k _ env h' => k ≤ ks.length ∧ env "self" = some (.ref self) ∧ Frame [kr] h h' ∧
      ∃ vs', h'[kr]? = some (.list vs') ∧ BytesList vs' h' ((ks.take k).map zeroFill ++ ks.drop k))
    (fun h' => Frame [kr] h h' ∧ ∃ vs', h'[kr]? = some (.list vs') ∧ BytesList vs' h' (ks.map zeroFill)) (s := ())
    (by
      rintro k i _ env h1 hki ⟨hk0, i0, i1, vs', i2, i3⟩
      obtain rfl : k = i := by
        obtain ⟨_, e⟩ := List.getElem?_eq_some_iff.mp hki
        simpa using e
      have hself : h1[self]? = some (.inst "GOST34122015Magma" attrs) :=
        i1.get o1 (by simpa using hne)
      by_cases hlt : k < ks.length
      · rw [if_pos hlt]
        have hlen : k < ((ks.take k).map zeroFill ++ ks.drop k).length := by simp; omega
        obtain ⟨w, hw, hb⟩ := i3.getNat hlen
        have hx : ((ks.take k).map zeroFill ++ ks.drop k)[k] = ks[k] := by
          rw [List.getElem_append_right (by simp; omega)]
          simp [Nat.min_eq_left (show k ≤ ks.length by omega)]
        rw [hx] at hb
        obtain ⟨m, l, e1, hm, hb1⟩ := (zero_fill_ok L n hb).elim
        refine ⟨_, _, by
          py [i0, hself, o2, getItem_listNat i2 hw, e1,
            setItem_list (get_mono i2 l) (show k < vs'.length by rw [i3.length]; exact hlen)]
          rfl, _, rfl, hlt, by py [i0], (i1.add l).set (by simp) _, _, get_set_same _ (by py [i2]), ?_⟩
        rw [← take_map_set zeroFill (by omega)]
        exact ((i3.mono l).setAt k hb1).set (by py [i2]) (by py [])
      · rw [if_neg hlt]
        have hl := i3.length
        rw [List.take_of_length_le (by omega), List.drop_of_length_le (by omega), List.append_nil] at i3
        have hg : getItem (.ref kr) (.int (k : Int)) h1 = fail .index h1 := by
          rw [getItem_list i2]
          rw [Gost.pyGet_out vs' k (by have := i3.length; rw [List.length_map] at this; omega)]
        refine ⟨_, ?_, i1, vs', i2, i3⟩
        py [i0, hself, o2, hg]
        rfl)
    ⟨Nat.zero_le _, by py [], .refl _ _, vs, o3, by simpa using o4⟩
  have hm : (List.range 32).foldlM (m := Res) (fun (_ : Unit) i => if i < ks.length then .ok () else .error .indexError) () =
      .error .indexError := by
    have : ∀ l : List Nat, (∃ i ∈ l, ks.length ≤ i) →
        l.foldlM (m := Res) (fun (_ : Unit) i => if i < ks.length then .ok () else .error .indexError) () =
          .error .indexError := by
      intro l
      induction l with
      | nil => rintro ⟨i, hi, -⟩; cases hi
      | cons a l ih =>
        rintro ⟨i, hi, hle⟩
        rw [List.foldlM_cons]
        by_cases ha : a < ks.length
        · rw [if_pos ha]
          rcases List.mem_cons.mp hi with rfl | hi
          · omega
          · exact ih ⟨i, hi, hle⟩
        · rw [if_neg ha]; rfl
    exact this _ ⟨ks.length, by simpa using hk, Nat.le_refl _⟩
  rw [hm] at this
  obtain ⟨h', rfl, i1, vs', i2, i3⟩ := this
  py []
  exact ⟨_, rfl, i1, attrs, vs', i1.get o1 (by simpa using hne), o2, i2, i3⟩

/-- `__del__` of the block ciphers calls `clear`. -/
theorem cipher_del (L n : Nat) {c : CipherObj} {self kr : Nat} {h : Heap} (r : CipherRep c self kr h) {o : Out Val}
    (e : callMeth (ctx L n) (.ref self) "clear" [] h = o) :
    callMeth (ctx L (n + 1)) (.ref self) "__del__" [] h = andThen o fun _ h => ok .none h := by
  obtain ⟨attrs, vs, o1, -⟩ := r
  cases c with
  | kuz ks =>
    py [o1, className]
    rw [call_succ Fn.GOST34122015Kuznechik.__del__]
    py [GOST34122015Kuznechik.m___del__]
    rw [callMeth_ref] at e
    simp only [ctx_method, ctx_call] at e
    rw [e]
    rcases o with ⟨_ | _, _⟩ <;> rfl
  | magma ks =>
    py [o1, className]
    rw [call_succ Fn.GOST34122015Magma.__del__]
    py [GOST34122015Magma.m___del__]
    rw [callMeth_ref] at e
    simp only [ctx_method, ctx_call] at e
    rw [e]
    rcases o with ⟨_ | _, _⟩ <;> rfl

/-- C109, block ciphers, whatever the round keys are: the destruction overwrites all round keys which exist and changes
nothing else; it raises `IndexError` exactly if there are fewer round keys than rounds, which a constructor leaves behind
that raised because the key was short. -/
theorem C109_block (L n : Nat) (h : Heap) (c : CipherObj) (self kr : Nat) (r : CipherRep c self kr h)
    (hk : (CipherObj.keys c).length ≤ CipherObj.rounds c) :
    ∃ h', callMeth (ctx L (n + 6)) (.ref self) "__del__" [] h =
        (if (CipherObj.keys c).length = CipherObj.rounds c then ok .none h' else fail .index h') ∧
      Frame [kr] h h' ∧ CipherRep c.clear self kr h' := by
  by_cases he : (CipherObj.keys c).length = CipherObj.rounds c
  · obtain ⟨v, h', f, k, a⟩ := cipher_clear L (n + 3) r he
    exact ⟨h', by rw [if_pos he, cipher_del L _ r f]; rfl, k, a⟩
  · have : ∃ h', callMeth (ctx L (n + 5)) (.ref self) "clear" [] h = fail .index h' ∧ Frame [kr] h h' ∧
        CipherRep c.clear self kr h' := by
      rw [callMeth_cipher L _ r]
      cases c with
      | kuz ks =>
        py [className]
        exact Kuz.clear_short L (n + 3) r (Nat.lt_of_le_of_ne hk he)
      | magma ks =>
        py [className]
        exact Magma.clear_short L (n + 3) r (Nat.lt_of_le_of_ne hk he)
    obtain ⟨h', f, k, a⟩ := this
    exact ⟨h', by rw [if_neg he, cipher_del L _ r f]; rfl, k, a⟩

theorem mode_del {cls : String} (m : IsMode cls) : package.method cls "__del__" = some ("GOST34132015.__del__", false) := by
  rcases m with rfl | rfl | rfl | rfl | rfl | rfl <;> py []

/-- `__del__` of the modes calls `clear`. -/
theorem mode_del_clear (L n : Nat) {cls : String} (m : IsMode cls) {me : Nat} {h : Heap} {l : List (String × Val)}
    (g : h[me]? = some (.inst cls l)) {o : Out Val} (e : callMeth (ctx L n) (.ref me) "clear" [] h = o) :
    callMeth (ctx L (n + 1)) (.ref me) "__del__" [] h = andThen o fun _ h => ok .none h := by
  rw [callMeth_ref, g]
  py [mode_del m]
  rw [call_succ Fn.GOST34132015.__del__]
  py [GOST34132015.m___del__]
  rw [callMeth_ref] at e
  simp only [ctx_method, ctx_call] at e
  rw [e]
  rcases o with ⟨_ | _, _⟩ <;> rfl

/-- C109, modes of operation: an object of any mode in any state is destroyed without an exception, as if `clear` were
called; so is an object which has a cipher object, whatever its other attributes are, which a constructor leaves behind
that refused the padding mode, the initialization vector or the data; an object without cipher object, which a
constructor leaves behind that refused the algorithm or the key, is destroyed without an exception and without a
change. -/
theorem C109_modes (L n : Nat) (h : Heap) :
    (∀ c me P, IsCipher c me P h →
      ∃ h', callMeth (ctx L (n + 10)) (.ref me) "__del__" [] h = ok .none h' ∧ Frame P h h' ∧ IsCipher c.clear me P h') ∧
    (∀ cls c me cr kr tl, ModeAt cls c me cr kr [] tl h →
      ∃ h', callMeth (ctx L (n + 10)) (.ref me) "__del__" [] h = ok .none h' ∧ Frame [kr] h h' ∧
        ModeAt cls c.clear me cr kr [] tl h') ∧
    ∀ cls me l, IsMode cls → h[me]? = some (.inst cls l) → findAttr "_cipher_obj" l = none →
      callMeth (ctx L (n + 10)) (.ref me) "__del__" [] h = ok .none h := by
  refine ⟨?_, ?_, ?_⟩
  · intro c me P r
    obtain ⟨h', f, k, r'⟩ := C101_clear L n h c me P r
    obtain ⟨cls, l, m, g⟩ : ∃ cls l, IsMode cls ∧ h[me]? = some (.inst cls l) := by
      cases c with
      | ecb s => obtain ⟨cr, kr, a, -⟩ := r; obtain ⟨o, g, -⟩ := a.obj; exact ⟨_, _, a.mode, g⟩
      | cbc s => obtain ⟨cr, kr, iv, a, -⟩ := r; obtain ⟨o, g, -⟩ := a.mode.obj; exact ⟨_, _, a.mode.mode, g⟩
      | cfb s => obtain ⟨cr, kr, iv, a, -⟩ := r; obtain ⟨o, g, -⟩ := a.mode.obj; exact ⟨_, _, a.mode.mode, g⟩
      | ofb s => obtain ⟨cr, kr, iv, a, -⟩ := r; obtain ⟨o, g, -⟩ := a.mode.obj; exact ⟨_, _, a.mode.mode, g⟩
      | ctr s => obtain ⟨cr, kr, i0, ct, a, -⟩ := r; obtain ⟨o, g, -⟩ := a.mode.obj; exact ⟨_, _, a.mode.mode, g⟩
      | mac s => obtain ⟨cr, kr, x, a, -⟩ := r; obtain ⟨o, g, -⟩ := a.mode.obj; exact ⟨_, _, a.mode.mode, g⟩
    exact ⟨h', by rw [mode_del_clear L _ m g f]; rfl, k, r'⟩
  · intro cls c me cr kr tl a
    obtain ⟨h', f, k, a'⟩ := clear_none L (n + 6) a (by simp)
    have m := a.mode
    obtain ⟨o, g, -⟩ := a.obj
    have : callMeth (ctx L (n + 9)) (.ref me) "clear" [] h = ok .none h' := by
      rw [callMeth_ref, g]
      py [m.clear]
      exact f
    exact ⟨h', by rw [mode_del_clear L _ m g this]; rfl, k, a'⟩
  · intro cls me l m g hl
    have : callMeth (ctx L (n + 9)) (.ref me) "clear" [] h = ok .none h := by
      rw [callMeth_ref, g]
      py [m.clear]
      rw [call_succ Fn.GOST34132015.clear]
      py [GOST34132015.m_clear]
      rw [RandomSrc.builtin_hasattr _ g, hl]
      py []
    rw [mode_del_clear L _ m g this]
    rfl

/-- C109, HMAC: an object in any state is destroyed without an exception, as if `clear` were called; an object without
hash object is destroyed without an exception and without a change. -/
theorem C109_hmac (L n : Nat) (h : Heap) :
    (∀ s me hr, IsHmac s me hr h →
      ∃ h', callMeth (ctx L (n + 9)) (.ref me) "__del__" [] h = ok .none h' ∧ Keeps [me, hr] h h' ∧
        IsHmac s.clear me hr h') ∧
    ∀ me l, h[me]? = some (.inst "R5011132016" l) → findAttr "_hasher_obj" l = none →
      callMeth (ctx L (n + 9)) (.ref me) "__del__" [] h = ok .none h := by
  constructor
  · intro s me hr r
    obtain ⟨h', f, k, r'⟩ := (C98_methods L n h s me hr r).2.2.2.2.2.1
    obtain ⟨kv, o, o0, -⟩ := r
    refine ⟨h', ?_, k, r'⟩
    py [o0]
    rw [call_succ Fn.R5011132016.__del__]
    py [R5011132016.m___del__]
    rw [RandomSrc.builtin_hasattr _ o0]
    py []
    rw [callMeth_ref] at f
    simp only [ctx_method, ctx_call] at f
    rw [f]
    rfl
  · intro me l g hl
    py [g]
    rw [call_succ Fn.R5011132016.__del__]
    py [R5011132016.m___del__]
    rw [RandomSrc.builtin_hasattr _ g, hl]
    py []

/-- C109, PBKDF: an object in any state is destroyed without an exception, as if `clear` were called. An object whose
only attribute of interest is a password, whatever the others are, is destroyed without an exception, and the password
is overwritten. An object without password, which a constructor leaves behind that refused it, raises
`AttributeError`. -/
theorem C109_pbkdf (L n : Nat) (h : Heap) :
    (∀ s me c, PbkdfAt s me c h →
      ∃ h' c', callMeth (ctx L (n + 12)) (.ref me) "__del__" [] h = ok .none h' ∧ Keeps [me] h h' ∧
        PbkdfAt s.clear me c' h' ∧ c'.hmac = c.hmac ∧ c'.hash = c.hash) ∧
    (∀ me l v pw, h[me]? = some (.inst "R5011112016" l) → findAttr "_password" l = some v → bytesOf v h = some pw →
      ∃ h' w, callMeth (ctx L (n + 12)) (.ref me) "__del__" [] h = ok .none h' ∧ Keeps [me] h h' ∧
        h'[me]? = some (.inst "R5011112016" (setAttrList "_password" w l)) ∧ bytesOf w h' = some (zeroFill pw)) ∧
    ∀ me l, h[me]? = some (.inst "R5011112016" l) → findAttr "_password" l = none →
      callMeth (ctx L (n + 12)) (.ref me) "__del__" [] h = fail .attribute h := by
  have del : ∀ {me l}, h[me]? = some (.inst "R5011112016" l) → ∀ {o}, callMeth (ctx L (n + 11)) (.ref me) "clear" [] h = o →
      callMeth (ctx L (n + 12)) (.ref me) "__del__" [] h = andThen o fun _ h => ok .none h := by
    intro me l g o e
    py [g]
    rw [call_succ Fn.R5011112016.__del__]
    py [R5011112016.m___del__]
    rw [callMeth_ref] at e
    simp only [ctx_method, ctx_call] at e
    rw [e]
    rcases o with ⟨_ | _, _⟩ <;> rfl
  refine ⟨fun s me c r => ?_, fun me l v pw g hl hb => ?_, fun me l g hl => ?_⟩
  · obtain ⟨h', c', f, k⟩ := (C99_methods L n h s me c r).2.2.1
    exact ⟨h', c', by rw [del r.obj f]; rfl, k⟩
  · obtain ⟨w, l2, f2, hw, b2⟩ := (zero_fill_ok L (n + 9) hb).elim
    have : ∃ h', callMeth (ctx L (n + 11)) (.ref me) "clear" [] h = ok .none h' ∧ Keeps [me] h h' ∧
        h'[me]? = some (.inst "R5011112016" (setAttrList "_password" (.ref w) l)) ∧
        bytesOf (.ref w) h' = some (zeroFill pw) := by
      py [g]
      rw [call_succ Fn.R5011112016.clear]
      py [R5011112016.m_clear, g, hl, f2, get_mono g l2]
      upd (get_mono g l2) with H1 o1 k1 m1
      exact ⟨H1, rfl, ((Keeps.refl _ _).add l2).trans k1, o1, k1.bytes b2⟩
    obtain ⟨h', f, k⟩ := this
    exact ⟨h', .ref w, by rw [del g f]; rfl, k⟩
  · rw [del g (o := fail .attribute h)]
    · rfl
    · py [g]
      rw [call_succ Fn.R5011112016.clear]
      py [R5011112016.m_clear, g, hl]

/-- C109, generators: an object in any state is destroyed without an exception, as if `clear` were called. So is an
object which has a register, whatever its other attributes are, and one which has none. -/
theorem C109_random (L n : Nat) (h : Heap) :
    (∀ s me u hr, RandAt s me u hr h →
      ∃ h' u', callMeth (ctx L (n + 9)) (.ref me) "__del__" [] h = ok .none h' ∧ Keeps [me] h h' ∧
        RandAt s.clear me u' hr h') ∧
    (∀ me l v b, h[me]? = some (.inst "R132356510062017" l) → findAttr "_rand_u" l = some v → bytesOf v h = some b →
      ∃ h' w, callMeth (ctx L (n + 9)) (.ref me) "__del__" [] h = ok .none h' ∧ Keeps [me] h h' ∧
        h'[me]? = some (.inst "R132356510062017" (setAttrList "_rand_u" w l)) ∧ bytesOf w h' = some (zeroFill b)) ∧
    ∀ me l, h[me]? = some (.inst "R132356510062017" l) → findAttr "_rand_u" l = none →
      callMeth (ctx L (n + 9)) (.ref me) "__del__" [] h = ok .none h := by
  have del : ∀ {me l}, h[me]? = some (.inst "R132356510062017" l) → ∀ {o},
      callMeth (ctx L (n + 8)) (.ref me) "clear" [] h = o →
      callMeth (ctx L (n + 9)) (.ref me) "__del__" [] h = andThen o fun _ h => ok .none h := by
    intro me l g o e
    py [g]
    rw [call_succ Fn.R132356510062017.__del__]
    py [R132356510062017.m___del__]
    rw [callMeth_ref] at e
    simp only [ctx_method, ctx_call] at e
    rw [e]
    rcases o with ⟨_ | _, _⟩ <;> rfl
  refine ⟨fun s me u hr r => ?_, fun me l v b g hl hb => ?_, fun me l g hl => ?_⟩
  · obtain ⟨h', u', f, k⟩ := (C100_methods L n h s me u hr r).2.2.2.2
    exact ⟨h', u', by rw [del r.obj f]; rfl, k⟩
  · obtain ⟨w, l2, f2, hw, b2⟩ := (zero_fill_ok L (n + 6) hb).elim
    have : ∃ h', callMeth (ctx L (n + 8)) (.ref me) "clear" [] h = ok .none h' ∧ Keeps [me] h h' ∧
        h'[me]? = some (.inst "R132356510062017" (setAttrList "_rand_u" (.ref w) l)) ∧
        bytesOf (.ref w) h' = some (zeroFill b) := by
      py [g]
      rw [call_succ Fn.R132356510062017.clear]
      py [R132356510062017.m_clear]
      rw [RandomSrc.builtin_hasattr _ g, hl]
      py [g, hl, f2, get_mono g l2]
      upd (get_mono g l2) with H1 o1 k1 m1
      exact ⟨H1, rfl, ((Keeps.refl _ _).add l2).trans k1, o1, k1.bytes b2⟩
    obtain ⟨h', f, k⟩ := this
    exact ⟨h', .ref w, by rw [del g f]; rfl, k⟩
  · rw [del g (o := ok .none h)]
    · rfl
    · py [g]
      rw [call_succ Fn.R132356510062017.clear]
      py [R132356510062017.m_clear]
      rw [RandomSrc.builtin_hasattr _ g, hl]
      py []

/-- What becomes of the object which a raising constructor leaves behind: `cls(args)` raises `e`, the exception is
caught, and the object, which is the first one that was made, is destroyed. -/
def LeftBehind (C : Ctx) (cls : String) (args : List Val) (h : Heap) (e : Exc) (P : Out Val → Heap → Prop) : Prop :=
  ∃ h', instantiate C cls args h = fail e h' ∧ P (callMeth C (.ref h.length) "__del__" [] h') h'

/-- The destruction ends without an exception. -/
def Quiet (o : Out Val) (_ : Heap) : Prop := ∃ h', o = ok .none h'

/-- C109, raising constructors of HMAC, PBKDF and the generators, for all arguments which are refused: the object left
behind is destroyed without an exception, apart from that of a PBKDF constructor which refuses the password, whose
destruction raises `AttributeError`. -/
theorem C109_left (L n : Nat) (h : Heap) :
    (∀ nv kv v, nv ≠ .str "HMAC_GOSTR3411_2012_256" → nv ≠ .str "HMAC_GOSTR3411_2012_512" →
      LeftBehind (ctx L (n + 12)) "R5011132016" [nv, kv, v] h
        (.raised "GOSTHMACError" "GOSTHMACError: unsupported mode") Quiet) ∧
    (∀ name kv v, name = "HMAC_GOSTR3411_2012_256" ∨ name = "HMAC_GOSTR3411_2012_512" →
      (Streebog.Other kv h ∨ ∃ key, bytesOf kv h = some key ∧ 64 < key.length) →
      LeftBehind (ctx L (n + 12)) "R5011132016" [.str name, kv, v] h
        (.raised "GOSTHMACError" "GOSTHMACError: invalid key value") Quiet) ∧
    (∀ name kv v key, name = "HMAC_GOSTR3411_2012_256" ∨ name = "HMAC_GOSTR3411_2012_512" →
      bytesOf kv h = some key → key.length ≤ 64 → Streebog.Other v h →
      LeftBehind (ctx L (n + 12)) "R5011132016" [.str name, kv, v] h
        (.raised "GOSTHMACError" "GOSTHMACError: invalid data value") Quiet) ∧
    (∀ pv sv iv, Streebog.Other pv h →
      LeftBehind (ctx L (n + 12)) "R5011112016" [pv, sv, iv] h
        (.raised "GOSTPBKDFError" "GOSTPBKDFError: invalid password value") fun o h' => o = fail .attribute h') ∧
    (∀ pv sv iv pw, bytesOf pv h = some pw → Streebog.Other sv h →
      LeftBehind (ctx L (n + 12)) "R5011112016" [pv, sv, iv] h
        (.raised "GOSTPBKDFError" "GOSTPBKDFError: invalid salt value") Quiet) ∧
    ∀ zv kv size, BadSeed kv h size →
      LeftBehind (ctx L (n + 12)) "R132356510062017" [zv, kv, .int size] h
        (.raised "GOSTRandomError" "GOSTRandomError: invalid seed value") Quiet := by
  refine ⟨?_, ?_, ?_, ?_, ?_, ?_⟩
  · intro nv kv v h1 h2
    refine ⟨_, ?_, _, (C109_hmac L (n + 3) (h ++ [.inst "R5011132016" []])).2 h.length [] (get_last _ _) rfl⟩
    unfold instantiate
    py []
    rw [init_name L (n + 11) h1 h2]
    py []
  · intro name kv v hn hk
    refine ⟨_, ?_, _, (C109_hmac L (n + 3) (h ++ [.inst "R5011132016" []])).2 h.length [] (get_last _ _) rfl⟩
    unfold instantiate
    py []
    have x := (Ext.refl h).add [.inst "R5011132016" []]
    rw [init_key L (n + 11) hn (kv := kv) (by
      intro key e
      rcases hk with h1 | ⟨key', e', hl⟩
      · rw [(h1.keeps (x.keeps []) (by simp)).1] at e
        cases e
      · rw [x.bytesOf e'] at e
        cases e
        exact hl)]
    py []
  · intro name kv v key hn e hk ho
    obtain ⟨h', f, -, hr, kv', r⟩ := (hmac_new L (n + 5) h hn e hk v).2 ho
    obtain ⟨h2, f2, -⟩ := (C109_hmac L (n + 3) h').1 _ _ _ ⟨_, r⟩
    exact ⟨h', f, h2, f2⟩
  · intro pv sv iv ho
    refine ⟨_, ?_, (C109_pbkdf L n (h ++ [.inst "R5011112016" []])).2.2 h.length [] (get_last _ _) rfl⟩
    unfold instantiate
    py []
    rw [init_password L (n + 11) (ho.keeps (((Ext.refl h).add _).keeps []) (by simp)).1]
    py []
  · intro pv sv iv pw e ho
    obtain ⟨h', f, -, l, v, g, hv, b⟩ := init_badsalt L (n + 10) (get_last h (.inst "R5011112016" [])) (Nat.le_refl _)
      (((Ext.refl h).keeps _).add _) e ho iv
    obtain ⟨h2, w, f2, -⟩ := (C109_pbkdf L n h').2.1 h.length l v _ g hv b
    refine ⟨h', ?_, h2, f2⟩
    unfold instantiate
    py []
    rw [f]
    py []
  · intro zv kv size a
    obtain ⟨h', f, -, l, v, b, g, hv, hb⟩ := init_bad L (n + 10) (get_last h (.inst "R132356510062017" [])) (Nat.le_refl _)
      (((Ext.refl h).keeps _).add _) a zv
    obtain ⟨h2, w, f2, -⟩ := (C109_random L (n + 3) h').2.1 h.length l v _ g hv hb
    refine ⟨h', ?_, h2, f2⟩
    unfold instantiate
    py []
    rw [f]
    py []

/-- The memory with a Kuznechik object which has two round keys, as a short key leaves it: the round keys are overwritten
and `IndexError` is raised. -/
example (L : Nat) : ∃ h', callMeth (ctx L 6) (.ref 0) "__del__" []
      [.inst "GOST34122015Kuznechik" [("_cipher_iter_key", .ref 1)], .list [.bytes [1, 2], .bytes [3]]] = fail .index h' ∧
    CipherRep (.kuz [[0x2f, 0x78, 0x30, 0x30, 0x2f, 0x78, 0x30, 0x30], [0x2f, 0x78, 0x30, 0x30]]) 0 1 h' := by
  obtain ⟨h', f, -, r⟩ := C109_block L 0
    [.inst "GOST34122015Kuznechik" [("_cipher_iter_key", .ref 1)], .list [.bytes [1, 2], .bytes [3]]]
    (.kuz [[1, 2], [3]]) 0 1 ⟨_, _, rfl, rfl, rfl, rfl⟩ (by decide)
  exact ⟨h', f, r⟩

/-- The case of a text as password. -/
example (L : Nat) : LeftBehind (ctx L 12) "R5011112016" [.str "password", .bytes [], .int 1] []
    (.raised "GOSTPBKDFError" "GOSTPBKDFError: invalid password value") fun o h' => o = fail .attribute h' :=
  (C109_left L 0 []).2.2.2.1 _ _ _ (by simp [Streebog.Other, bytesOf])

/-- The case of a key of 65 bytes. -/
example (L : Nat) : LeftBehind (ctx L 12) "R5011132016"
    [.str "HMAC_GOSTR3411_2012_256", .bytes (List.replicate 65 1), .bytes []] []
    (.raised "GOSTHMACError" "GOSTHMACError: invalid key value") Quiet :=
  (C109_left L 0 []).2.1 _ _ _ (Or.inl rfl) (Or.inr ⟨_, rfl, by simp⟩)

/-- The case of a seed of the wrong length. -/
example (L : Nat) : LeftBehind (ctx L 12) "R132356510062017" [.int 16, .bytes [1, 2, 3], .int 48] []
    (.raised "GOSTRandomError" "GOSTRandomError: invalid seed value") Quiet :=
  (C109_left L 0 []).2.2.2.2.2 _ _ 48 (Or.inr ⟨_, rfl, by simp, by simp⟩)

end Gost.Src
