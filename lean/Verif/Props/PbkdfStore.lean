import Verif.Props.Hex
import Verif.Props.HmacStore
import Verif.Spec.PbkdfCalls

/-! Property C58: key derivation objects, any number of them, any sequence of calls; and the part
of C57 about passwords. -/

namespace Gost
open Spec (PbkdfOp PbkdfRes PbkdfEntry pbkdfLog pbkdfNew pbkdfOutputs hmacKey pbkdf2 hashOf)

/-- The message of an exception of the classes `GOSTPBKDFError` and `GOSTHMACError`. -/
def pbkdfRejected : Err → PbkdfRes
  | .pbkdfError m => .rejected m
  | .hmacError m => .rejected m
  | _ => .noObject

/-- The calls on a list of objects of the model. -/
def pbkdfStore (objs : List Pbkdf) : PbkdfOp → List Pbkdf × PbkdfRes
  | .new rand pw salt c =>
    match Pbkdf.new rand (pyArg pw) (salt.map pyArg) c with
    | .ok s => (objs ++ [s], .done)
    | .error e => (objs, pbkdfRejected e)
  | .derive i n =>
    match objs[i]? with
    | some s =>
      match s.derive n with
      | (s, .ok r) => (objs.set i s, .bytes r)
      | (s, .error e) => (objs.set i s, pbkdfRejected e)
    | none => (objs, .noObject)
  | .hexderive i n =>
    match objs[i]? with
    | some s =>
      match s.hexderive n with
      | (s, .ok r) => (objs.set i s, .text r)
      | (s, .error e) => (objs.set i s, pbkdfRejected e)
    | none => (objs, .noObject)
  | .clear i =>
    match objs[i]? with
    | some s => (objs.set i s.clear, .done)
    | none => (objs, .noObject)
  | .salt i =>
    match objs[i]? with
    | some s => (objs, .bytes s.saltProp)
    | none => (objs, .noObject)

/-- An object stands for an entry of the log. -/
structure PbkdfStands (s : Pbkdf) (e : PbkdfEntry) : Prop where
  inv : Pbkdf.Inv e.password e.salt (max 1 e.iterations).toNat s
  len : e.password.length ≤ 64

theorem PbkdfStands.derive {s : Pbkdf} {e : PbkdfEntry} (h : PbkdfStands s e) (n : Int)
    (hn : n ≤ (2 ^ 32 - 1) * 64) :
    (s.derive n).2 = .ok (e.derive n) ∧ PbkdfStands (s.derive n).1 e := by
  by_cases h0 : n < 0
  · rw [Pbkdf.derive_neg s n h0]
    refine ⟨?_, h⟩
    unfold PbkdfEntry.derive
    rw [show n.toNat = 0 by omega]
    rfl
  · obtain ⟨m, rfl⟩ : ∃ m : Nat, n = m := ⟨n.toNat, by omega⟩
    obtain ⟨h1, h2⟩ := Pbkdf.derive_ok h.inv h.len m (by omega)
    refine ⟨?_, h2, h.len⟩
    rw [h1]
    rfl

theorem PbkdfStands.init (pw sl : Bytes) (c : Int) (hpw : pw.length ≤ 64) :
    PbkdfStands ⟨pw, sl, c, 0, ⟨hmacKey pw, HashObj.hashInit "streebog512", 0⟩⟩ ⟨pw, sl, c⟩ := by
  refine ⟨⟨rfl, ?_, rfl, rfl⟩, hpw⟩
  show (c - 1).toNat = (max 1 c).toNat - 1
  omega

theorem pbkdfStore_new {objs : List Pbkdf} {log : List PbkdfEntry} (h : AllRel PbkdfStands objs log)
    (rand : Bytes) (pw : Option Bytes) (salt : Option (Option Bytes)) (c : Int) :
    AllRel PbkdfStands (pbkdfStore objs (.new rand pw salt c)).1
        (pbkdfLog pyHex log (.new rand pw salt c)).1 ∧
      (pbkdfStore objs (.new rand pw salt c)).2 = (pbkdfLog pyHex log (.new rand pw salt c)).2 := by
  have key : ∀ p sl, saltUsed rand (salt.map pyArg) = some sl → pw = some p →
      pbkdfNew rand pw salt c = pbkdfNew.check c p sl →
      AllRel PbkdfStands (pbkdfStore objs (.new rand pw salt c)).1
        (pbkdfLog pyHex log (.new rand pw salt c)).1 ∧
      (pbkdfStore objs (.new rand pw salt c)).2 = (pbkdfLog pyHex log (.new rand pw salt c)).2 := by
    rintro p sl hs rfl hl
    simp only [pbkdfStore, pbkdfLog, hl, pbkdf_new, hs, pyArg, PyVal.data?, pbkdfNew.check]
    by_cases hp : p.length ≤ 64
    · rw [if_neg (by omega), if_pos hp]
      exact ⟨h.append (PbkdfStands.init p sl c hp), rfl⟩
    · rw [if_pos (by omega), if_neg hp]
      exact ⟨h, rfl⟩
  cases pw with
  | none =>
    simp only [pbkdfStore, pbkdfLog, pbkdf_new, pyArg, PyVal.data?, pbkdfNew]
    exact ⟨h, rfl⟩
  | some p =>
    cases salt with
    | none => exact key p rand rfl rfl rfl
    | some v =>
      cases v with
      | none =>
        simp only [pbkdfStore, pbkdfLog, pbkdf_new, pyArg, PyVal.data?, pbkdfNew, saltUsed,
          Option.map_some]
        exact ⟨h, rfl⟩
      | some d =>
        cases d with
        | nil => exact key p rand rfl rfl rfl
        | cons b d => exact key p (b :: d) rfl rfl rfl

theorem pbkdfStore_step {objs : List Pbkdf} {log : List PbkdfEntry}
    (h : AllRel PbkdfStands objs log) (c : PbkdfOp) :
    AllRel PbkdfStands (pbkdfStore objs c).1 (pbkdfLog pyHex log c).1 ∧
      (pbkdfStore objs c).2 = (pbkdfLog pyHex log c).2 := by
  cases c with
  | new rand pw salt c => exact pbkdfStore_new h rand pw salt c
  | derive i n =>
    rcases h.get i with ⟨h1, h2⟩ | ⟨s, e, h1, h2, hs⟩
    · simp only [pbkdfStore, pbkdfLog, h1, h2]
      exact ⟨h, trivial⟩
    · simp only [pbkdfStore, pbkdfLog, h1, h2]
      by_cases hn : n ≤ (2 ^ 32 - 1) * 64
      · obtain ⟨d1, d2⟩ := hs.derive n hn
        rw [if_pos hn]
        rcases hd : s.derive n with ⟨s', r⟩
        rw [hd] at d1 d2
        cases d1
        exact ⟨h.set_left i h2 d2, rfl⟩
      · rw [if_neg hn, (C33_derive s n).2 (by omega)]
        exact ⟨h.set_self i h1, rfl⟩
  | hexderive i n =>
    rcases h.get i with ⟨h1, h2⟩ | ⟨s, e, h1, h2, hs⟩
    · simp only [pbkdfStore, pbkdfLog, h1, h2]
      exact ⟨h, trivial⟩
    · simp only [pbkdfStore, pbkdfLog, h1, h2, Pbkdf.hexderive]
      by_cases hn : n ≤ (2 ^ 32 - 1) * 64
      · obtain ⟨d1, d2⟩ := hs.derive n hn
        rw [if_pos hn]
        rcases hd : s.derive n with ⟨s', r⟩
        rw [hd] at d1 d2
        cases d1
        exact ⟨h.set_left i h2 d2, rfl⟩
      · rw [if_neg hn, (C33_derive s n).2 (by omega)]
        exact ⟨h.set_self i h1, rfl⟩
  | clear i =>
    rcases h.get i with ⟨h1, h2⟩ | ⟨s, e, h1, h2, hs⟩
    · simp only [pbkdfStore, pbkdfLog, h1, h2]
      exact ⟨h, trivial⟩
    · simp only [pbkdfStore, pbkdfLog, h1, h2]
      exact ⟨h.set_left i h2 ⟨⟨hs.inv.salt, hs.inv.iter, hs.inv.key, hs.inv.name⟩, hs.len⟩, trivial⟩
  | salt i =>
    rcases h.get i with ⟨h1, h2⟩ | ⟨s, e, h1, h2, hs⟩
    · simp only [pbkdfStore, pbkdfLog, h1, h2]
      exact ⟨h, trivial⟩
    · simp only [pbkdfStore, pbkdfLog, h1, h2, Pbkdf.saltProp, hs.inv.salt]
      exact ⟨h, trivial⟩

/-- C58. For every sequence of calls on any number of key derivation objects, in any interleaving,
with any accepted or rejected arguments, any number of iterations and any lengths, all results are
those of the log `pbkdfLog`, in which an object is a password, a salt and a number of iterations
which never change. -/
theorem C58_histories (cs : List PbkdfOp) :
    pbkdfOutputs pbkdfStore [] cs = pbkdfOutputs (pbkdfLog pyHex) [] cs := by
  suffices h : ∀ objs log, AllRel PbkdfStands objs log →
      pbkdfOutputs pbkdfStore objs cs = pbkdfOutputs (pbkdfLog pyHex) log cs from
    h [] [] AllRel.nil
  induction cs with
  | nil => intro objs log _; rfl
  | cons c cs ih =>
    intro objs log h
    obtain ⟨h1, h2⟩ := pbkdfStore_step h c
    simp only [pbkdfOutputs]
    rw [h2, ih _ _ h1]

/-- A history: two objects, one made with the random salt, a clear and rejected calls. -/
example : pbkdfOutputs pbkdfStore []
    [.new [9, 9] (some [1]) none 1, .new [] (some [1]) (some (some [5])) 2, .salt 0, .salt 1,
      .clear 0, .derive 0 3, .derive 1 (2 ^ 40), .new [] none none 1, .derive 0 (-1)] =
    [.done, .done, .bytes [9, 9], .bytes [5], .done,
      .bytes (pbkdf2 (Spec.hmac (hashOf "streebog512") [1]) [9, 9] 1 3),
      .rejected "GOSTPBKDFError: invalid size of the derived key",
      .rejected "GOSTPBKDFError: invalid password value", .bytes []] := by
  rw [C58_histories]
  rfl

/-- Two entries with passwords which give the same key of the HMAC. -/
structure SameKey (e e' : PbkdfEntry) : Prop where
  salt : e.salt = e'.salt
  iter : e.iterations = e'.iterations
  key : hmacKey e.password = hmacKey e'.password

theorem SameKey.derive {e e' : PbkdfEntry} (h : SameKey e e') (n : Int) :
    e.derive n = e'.derive n := by
  have : Spec.hmac (hashOf "streebog512") e.password =
      Spec.hmac (hashOf "streebog512") e'.password := by
    funext M
    unfold Spec.hmac
    rw [h.key]
  unfold PbkdfEntry.derive
  rw [h.salt, h.iter, this]

theorem pbkdfLog_sameKey {log log' : List PbkdfEntry} (h : AllRel SameKey log log') (c : PbkdfOp) :
    AllRel SameKey (pbkdfLog pyHex log c).1 (pbkdfLog pyHex log' c).1 ∧
      (pbkdfLog pyHex log c).2 = (pbkdfLog pyHex log' c).2 := by
  cases c with
  | new rand pw salt c =>
    simp only [pbkdfLog]
    cases pbkdfNew rand pw salt c with
    | ok e => exact ⟨h.append ⟨rfl, rfl, rfl⟩, rfl⟩
    | error m => exact ⟨h, rfl⟩
  | derive i n =>
    rcases h.get i with ⟨h1, h2⟩ | ⟨s, e, h1, h2, hs⟩
    · simp only [pbkdfLog, h1, h2]
      exact ⟨h, trivial⟩
    · simp only [pbkdfLog, h1, h2, hs.derive]
      split <;> exact ⟨h, rfl⟩
  | hexderive i n =>
    rcases h.get i with ⟨h1, h2⟩ | ⟨s, e, h1, h2, hs⟩
    · simp only [pbkdfLog, h1, h2]
      exact ⟨h, trivial⟩
    · simp only [pbkdfLog, h1, h2, hs.derive]
      split <;> exact ⟨h, rfl⟩
  | clear i =>
    rcases h.get i with ⟨h1, h2⟩ | ⟨s, e, h1, h2, hs⟩ <;> simp only [pbkdfLog, h1, h2] <;>
      exact ⟨h, trivial⟩
  | salt i =>
    rcases h.get i with ⟨h1, h2⟩ | ⟨s, e, h1, h2, hs⟩
    · simp only [pbkdfLog, h1, h2]
      exact ⟨h, trivial⟩
    · simp only [pbkdfLog, h1, h2, hs.salt]
      exact ⟨h, trivial⟩

/-- C57, PBKDF. A password and the same password followed by zero bytes, up to 64 bytes in all, make
objects whose every sequence of calls returns the same results. -/
theorem C57_pbkdf (rand pw : Bytes) (m : Nat) (hpw : pw.length + m ≤ 64)
    (salt : Option (Option Bytes)) (c : Int) (cs : List PbkdfOp) :
    pbkdfOutputs pbkdfStore [] (.new rand (some (pw ++ List.replicate m 0)) salt c :: cs) =
      pbkdfOutputs pbkdfStore [] (.new rand (some pw) salt c :: cs) := by
  rw [C58_histories, C58_histories]
  have hstep : AllRel SameKey
      (pbkdfLog pyHex [] (.new rand (some (pw ++ List.replicate m 0)) salt c)).1
      (pbkdfLog pyHex [] (.new rand (some pw) salt c)).1 ∧
      (pbkdfLog pyHex [] (.new rand (some (pw ++ List.replicate m 0)) salt c)).2 =
      (pbkdfLog pyHex [] (.new rand (some pw) salt c)).2 := by
    have hc : ∀ sl, pbkdfNew.check c (pw ++ List.replicate m 0) sl =
        .ok ⟨pw ++ List.replicate m 0, sl, c⟩ := by
      intro sl; unfold pbkdfNew.check; rw [if_pos (by simp; omega)]
    have hc' : ∀ sl, pbkdfNew.check c pw sl = .ok ⟨pw, sl, c⟩ := by
      intro sl; unfold pbkdfNew.check; rw [if_pos (by omega)]
    have hk : ∀ sl, SameKey ⟨pw ++ List.replicate m 0, sl, c⟩ ⟨pw, sl, c⟩ := fun sl =>
      ⟨rfl, rfl, hmacKey_append_zeros pw m hpw⟩
    simp only [pbkdfLog]
    cases salt with
    | none => simp only [pbkdfNew, hc, hc']; exact ⟨AllRel.nil.append (hk _), trivial⟩
    | some v =>
      cases v with
      | none => simp only [pbkdfNew]; exact ⟨AllRel.nil, trivial⟩
      | some d =>
        cases d with
        | nil => simp only [pbkdfNew, hc, hc']; exact ⟨AllRel.nil.append (hk _), trivial⟩
        | cons b d => simp only [pbkdfNew, hc, hc']; exact ⟨AllRel.nil.append (hk _), trivial⟩
  simp only [pbkdfOutputs]
  rw [hstep.2]
  congr 1
  generalize (pbkdfLog pyHex [] (.new rand (some (pw ++ List.replicate m 0)) salt c)).1 = log at *
  generalize (pbkdfLog pyHex [] (.new rand (some pw) salt c)).1 = log' at *
  have h := hstep.1
  clear hstep
  induction cs generalizing log log' with
  | nil => rfl
  | cons c cs ih =>
    obtain ⟨h1, h2⟩ := pbkdfLog_sameKey h c
    simp only [pbkdfOutputs]
    rw [h2, ih _ _ h1]

/-- A case: three zero bytes after a password of two. -/
example : pbkdfOutputs pbkdfStore []
    [.new [] (some [1, 2, 0, 0, 0]) (some (some [5])) 2, .derive 0 4] =
    pbkdfOutputs pbkdfStore [] [.new [] (some [1, 2]) (some (some [5])) 2, .derive 0 4] :=
  C57_pbkdf [] [1, 2] 3 (by decide) _ _ _

end Gost
