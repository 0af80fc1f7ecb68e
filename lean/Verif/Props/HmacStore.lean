import Verif.Props.Hmac
import Verif.Proofs.Store
import Verif.Spec.HmacCalls

/-! Property C55: HMAC objects, any number of them, any sequence of calls. -/

namespace Gost
open Spec (HmacOp HmacRes HmacEntry hmacLog hmacNew hmacOutputs hmacHash hmacKey IsHmacName hashOf
  IsHashName effective xorByte clearedKey)

/-- The value passed for an argument of a call. -/
def pyArg : Option Bytes → PyVal
  | some d => .bytes d
  | none => .other

/-- The calls on a list of objects of the model. -/
def hmacStore (objs : List Hmac) : HmacOp → List Hmac × HmacRes
  | .new name key data =>
    match Hmac.new name (pyArg key) (data.map pyArg) with
    | .ok s => (objs ++ [s], .done)
    | .error (.hmacError m) => (objs, .rejected m)
    | .error _ => (objs, .noObject)
  | .update i v =>
    match objs[i]? with
    | some s =>
      match s.update (pyArg v) with
      | (s, .ok ()) => (objs.set i s, .done)
      | (s, .error (.hmacError m)) => (objs.set i s, .rejected m)
      | (s, .error _) => (objs.set i s, .noObject)
    | none => (objs, .noObject)
  | .digest i =>
    match objs[i]? with
    | some s => (objs, .bytes s.digest)
    | none => (objs, .noObject)
  | .hexdigest i =>
    match objs[i]? with
    | some s => (objs, .text s.hexdigest)
    | none => (objs, .noObject)
  | .copy i =>
    match objs[i]? with
    | some s => (objs ++ [s.copy], .done)
    | none => (objs, .noObject)
  | .reset i =>
    match objs[i]? with
    | some s => (objs.set i s.reset, .done)
    | none => (objs, .noObject)
  | .clear i =>
    match objs[i]? with
    | some s => (objs.set i s.clear, .done)
    | none => (objs, .noObject)
  | .digestSize i =>
    match objs[i]? with
    | some s => (objs, .num s.digestSize)
    | none => (objs, .noObject)
  | .blockSize i =>
    match objs[i]? with
    | some s => (objs, .num s.blockSize)
    | none => (objs, .noObject)
  | .name i =>
    match objs[i]? with
    | some s => (objs, .str s.nameProp)
    | none => (objs, .noObject)

/-- An object stands for an entry of the log. -/
structure HmacStands (s : Hmac) (e : HmacEntry) : Prop where
  name : IsHmacName e.name
  hash : HStands (hmacHash e.name) s.hasher e.inner
  key : s.key.take 64 = e.key
  klen : 64 ≤ s.key.length
  counter : s.counter = 0 ↔ e.started = false
  fresh : e.started = false → e.inner = []

theorem HmacStands.key_length {s : Hmac} {e : HmacEntry} (h : HmacStands s e) :
    e.key.length = 64 := by
  rw [← h.key, List.length_take]
  have := h.klen
  omega

theorem HmacStands.digest {s : Hmac} {e : HmacEntry} (h : HmacStands s e) :
    s.digest = e.digest := by
  have := Hmac.St.digest (hn := hmacHash e.name) (K := s.key) (M := e.inner) (c := s.counter)
    (s := s) ⟨rfl, h.hash, rfl⟩ (hmacHash_valid e.name)
  rw [this, h.key]
  rfl

theorem HmacStands.update {s : Hmac} {e : HmacEntry} (h : HmacStands s e) (d : Bytes) :
    HmacStands (s.updateBytes d) (e.update d) := by
  unfold HmacEntry.update
  by_cases hst : e.started = true
  · rw [if_pos hst]
    have hc : 0 < s.counter := by
      rcases Nat.eq_zero_or_pos s.counter with h0 | h0
      · rw [h.counter.1 h0] at hst; cases hst
      · exact h0
    have := Hmac.St.next (hn := hmacHash e.name) (K := s.key) (M := e.inner) (s := s)
      ⟨rfl, h.hash, rfl⟩ hc d
    exact ⟨h.name, this.hash, by rw [this.key]; exact h.key, by rw [this.key]; exact h.klen,
      by rw [this.counter]; simp [hst], by simp [hst]⟩
  · have hst' : e.started = false := by simpa using hst
    rw [if_neg hst]
    have hc := h.counter.2 hst'
    have hh := h.hash
    rw [h.fresh hst'] at hh
    have := Hmac.St.first (hn := hmacHash e.name) (K := s.key) (s := s) ⟨rfl, hh, hc⟩ d
    refine ⟨h.name, ?_, by rw [this.key]; exact h.key, by rw [this.key]; exact h.klen,
      by rw [this.counter]; simp, by simp⟩
    rw [← h.key]
    exact this.hash

theorem HmacStands.init (name : String) (hname : IsHmacName name) (k : Bytes) (hk : k.length ≤ 64) :
    HmacStands ⟨hmacKey k, HashObj.hashInit (hmacHash name), 0⟩ ⟨name, hmacKey k, false, []⟩ := by
  refine ⟨hname, HStands.init _, take_hmacKey k hk, ?_, by simp, fun _ => rfl⟩
  show 64 ≤ (hmacKey k).length
  rw [hmacKey_length k hk]; omega

theorem hmacStore_new {objs : List Hmac} {log : List HmacEntry} (h : AllRel HmacStands objs log)
    (name : String) (key : Option Bytes) (data : Option (Option Bytes)) :
    AllRel HmacStands (hmacStore objs (.new name key data)).1 (hmacLog pyHex log (.new name key data)).1 ∧
      (hmacStore objs (.new name key data)).2 = (hmacLog pyHex log (.new name key data)).2 := by
  by_cases hname : IsHmacName name
  · cases key with
    | none =>
      have e1 : Hmac.new name (pyArg none) (data.map pyArg) =
          .error (.hmacError "GOSTHMACError: invalid key value") :=
        C27_rejects name hname _ _ (by intro k hk; cases hk)
      have e2 : hmacNew name none data = .error "GOSTHMACError: invalid key value" := by
        unfold hmacNew; rw [if_pos (show _ ∨ _ from hname)]
      simp only [hmacStore, hmacLog, e1, e2]
      exact ⟨h, trivial⟩
    | some k =>
      by_cases hk : k.length ≤ 64
      · have hs := HmacStands.init name hname k hk
        have hi := Hmac.initKey_ok name hname (.bytes k) k rfl hk
        cases data with
        | none =>
          have e1 : Hmac.new name (pyArg (some k)) (Option.map pyArg none) = .ok _ :=
            Hmac.new_ok name hname (.bytes k) k rfl hk
          have e2 : hmacNew name (some k) none = .ok ⟨name, hmacKey k, false, []⟩ := by
            simp only [hmacNew]; rw [if_pos (show _ ∨ _ from hname), if_pos hk]
          simp only [hmacStore, hmacLog, e1, e2]
          exact ⟨h.append hs, trivial⟩
        | some v =>
          cases v with
          | none =>
            have e1 : Hmac.new name (pyArg (some k)) (Option.map pyArg (some none)) =
                .error (.hmacError "GOSTHMACError: invalid data value") := by
              show (Hmac.initKey name (.bytes k) >>= _) = _
              rw [hi]; rfl
            have e2 : hmacNew name (some k) (some none) =
                .error "GOSTHMACError: invalid data value" := by
              simp only [hmacNew]; rw [if_pos (show _ ∨ _ from hname), if_pos hk]
            simp only [hmacStore, hmacLog, e1, e2]
            exact ⟨h, trivial⟩
          | some d =>
            cases d with
            | nil =>
              have e1 : Hmac.new name (pyArg (some k)) (Option.map pyArg (some (some []))) =
                  .ok ⟨hmacKey k, HashObj.hashInit (hmacHash name), 0⟩ := by
                show (Hmac.initKey name (.bytes k) >>= _) = _
                rw [hi]; rfl
              have e2 : hmacNew name (some k) (some (some [])) =
                  .ok ⟨name, hmacKey k, false, []⟩ := by
                simp only [hmacNew]; rw [if_pos (show _ ∨ _ from hname), if_pos hk]
              simp only [hmacStore, hmacLog, e1, e2]
              exact ⟨h.append hs, trivial⟩
            | cons b d =>
              have e1 : Hmac.new name (pyArg (some k)) (Option.map pyArg (some (some (b :: d)))) =
                  .ok ((⟨hmacKey k, HashObj.hashInit (hmacHash name), 0⟩ : Hmac).updateBytes
                    (b :: d)) := by
                show (Hmac.initKey name (.bytes k) >>= _) = _
                rw [hi]; rfl
              have e2 : hmacNew name (some k) (some (some (b :: d))) =
                  .ok ((⟨name, hmacKey k, false, []⟩ : HmacEntry).update (b :: d)) := by
                simp only [hmacNew]; rw [if_pos (show _ ∨ _ from hname), if_pos hk]
              simp only [hmacStore, hmacLog, e1, e2]
              exact ⟨h.append (hs.update _), trivial⟩
      · have e1 : Hmac.new name (pyArg (some k)) (data.map pyArg) =
            .error (.hmacError "GOSTHMACError: invalid key value") :=
          C27_rejects name hname _ _ (by intro k' hk'; cases hk'; omega)
        have e2 : hmacNew name (some k) data = .error "GOSTHMACError: invalid key value" := by
          simp only [hmacNew]; rw [if_pos (show _ ∨ _ from hname), if_neg hk]
        simp only [hmacStore, hmacLog, e1, e2]
        exact ⟨h, trivial⟩
  · have e1 : Hmac.new name (pyArg key) (data.map pyArg) =
        .error (.hmacError "GOSTHMACError: unsupported mode") := by
      unfold Hmac.new Hmac.initKey
      rw [if_pos (by unfold IsHmacName at hname; exact not_or.1 hname)]
      rfl
    have e2 : hmacNew name key data = .error "GOSTHMACError: unsupported mode" := by
      unfold hmacNew; rw [if_neg (show ¬ (_ ∨ _) from hname)]
    simp only [hmacStore, hmacLog, e1, e2]
    exact ⟨h, trivial⟩

theorem hmacStore_step {objs : List Hmac} {log : List HmacEntry} (h : AllRel HmacStands objs log)
    (c : HmacOp) :
    AllRel HmacStands (hmacStore objs c).1 (hmacLog pyHex log c).1 ∧
      (hmacStore objs c).2 = (hmacLog pyHex log c).2 := by
  cases c with
  | new name key data => exact hmacStore_new h name key data
  | update i v =>
    rcases h.get i with ⟨h1, h2⟩ | ⟨s, e, h1, h2, hs⟩
    · simp only [hmacStore, hmacLog, h1, h2]
      exact ⟨h, trivial⟩
    · cases v with
      | some d =>
        simp only [hmacStore, hmacLog, h1, h2, Hmac.update, PyVal.data?, pyArg]
        exact ⟨h.set i (hs.update d), trivial⟩
      | none =>
        simp only [hmacStore, hmacLog, h1, h2, Hmac.update, PyVal.data?, pyArg]
        exact ⟨h.set_self i h1, trivial⟩
  | digest i =>
    rcases h.get i with ⟨h1, h2⟩ | ⟨s, e, h1, h2, hs⟩
    · simp only [hmacStore, hmacLog, h1, h2]
      exact ⟨h, trivial⟩
    · simp only [hmacStore, hmacLog, h1, h2, hs.digest]
      exact ⟨h, trivial⟩
  | hexdigest i =>
    rcases h.get i with ⟨h1, h2⟩ | ⟨s, e, h1, h2, hs⟩
    · simp only [hmacStore, hmacLog, h1, h2]
      exact ⟨h, trivial⟩
    · simp only [hmacStore, hmacLog, h1, h2, Hmac.hexdigest, hs.digest]
      exact ⟨h, trivial⟩
  | copy i =>
    rcases h.get i with ⟨h1, h2⟩ | ⟨s, e, h1, h2, hs⟩
    · simp only [hmacStore, hmacLog, h1, h2]
      exact ⟨h, trivial⟩
    · simp only [hmacStore, hmacLog, h1, h2, Hmac.copy]
      exact ⟨h.append hs, trivial⟩
  | reset i =>
    rcases h.get i with ⟨h1, h2⟩ | ⟨s, e, h1, h2, hs⟩
    · simp only [hmacStore, hmacLog, h1, h2]
      exact ⟨h, trivial⟩
    · simp only [hmacStore, hmacLog, h1, h2]
      refine ⟨h.set i ⟨hs.name, ?_, hs.key, hs.klen, ?_, fun _ => rfl⟩, trivial⟩
      · simp only [Hmac.reset, HashObj.reset, hs.hash.nm]
        exact HStands.init _
      · simp [Hmac.reset]
  | clear i =>
    rcases h.get i with ⟨h1, h2⟩ | ⟨s, e, h1, h2, hs⟩
    · simp only [hmacStore, hmacLog, h1, h2]
      exact ⟨h, trivial⟩
    · simp only [hmacStore, hmacLog, h1, h2]
      have hk := hs.klen
      refine ⟨h.set i ⟨hs.name, ?_, zeroFill_take _ 16 (by omega), ?_, hs.counter, fun _ => rfl⟩,
        trivial⟩
      · simp only [Hmac.clear, HashObj.reset, hs.hash.nm]
        exact HStands.init _
      · show 64 ≤ (zeroFill s.key).length
        rw [zeroFill_length]; omega
  | digestSize i =>
    rcases h.get i with ⟨h1, h2⟩ | ⟨s, e, h1, h2, hs⟩
    · simp only [hmacStore, hmacLog, h1, h2]
      exact ⟨h, trivial⟩
    · simp only [hmacStore, hmacLog, h1, h2, Hmac.digestSize, HashObj.digestSize, hs.hash.nm]
      refine ⟨h, ?_⟩
      rcases hs.name with hn | hn <;> rw [hn] <;> rfl
  | blockSize i =>
    rcases h.get i with ⟨h1, h2⟩ | ⟨s, e, h1, h2, hs⟩
    · simp only [hmacStore, hmacLog, h1, h2]
      exact ⟨h, trivial⟩
    · simp only [hmacStore, hmacLog, h1, h2, Hmac.blockSize, HashObj.blockSize]
      exact ⟨h, trivial⟩
  | name i =>
    rcases h.get i with ⟨h1, h2⟩ | ⟨s, e, h1, h2, hs⟩
    · simp only [hmacStore, hmacLog, h1, h2]
      exact ⟨h, trivial⟩
    · simp only [hmacStore, hmacLog, h1, h2, Hmac.nameProp, hs.hash.nm]
      refine ⟨h, ?_⟩
      rcases hs.name with hn | hn <;> rw [hn] <;> rfl

/-- C55. For every sequence of calls on any number of HMAC objects, in any interleaving, with any
accepted or rejected arguments, all results are those of the log `hmacLog`, in which an object is a
name, a key, a message and a flag of its own: `digest`, `hexdigest` and the attributes change
nothing, `copy` makes an independent entry, a rejected call changes nothing. -/
theorem C55_histories (cs : List HmacOp) :
    hmacOutputs hmacStore [] cs = hmacOutputs (hmacLog pyHex) [] cs := by
  suffices h : ∀ objs log, AllRel HmacStands objs log →
      hmacOutputs hmacStore objs cs = hmacOutputs (hmacLog pyHex) log cs from h [] [] AllRel.nil
  induction cs with
  | nil => intro objs log _; rfl
  | cons c cs ih =>
    intro objs log h
    obtain ⟨h1, h2⟩ := hmacStore_step h c
    simp only [hmacOutputs]
    rw [h2, ih _ _ h1]

/-- The log says what HMAC is: the code for the first update on a new entry is the HMAC of the
standard. -/
theorem C55_log_is_hmac (name : String) (k d : Bytes) :
    ((⟨name, hmacKey k, false, []⟩ : HmacEntry).update d).digest =
      Spec.hmac (hashOf (hmacHash name)) k d := rfl

/-- A history with a copy which goes its own way, rejected calls, a reset and a clear. -/
example : hmacOutputs hmacStore []
    [.new "HMAC_GOSTR3411_2012_512" (some [1, 2]) none, .update 0 (some [7]), .copy 0,
      .update 1 (some [8]), .update 0 none, .new "HMAC" (some [1]) none, .digest 0, .digest 1,
      .clear 1, .digest 0, .name 1, .digestSize 1] =
    [.done, .done, .done, .done, .rejected "GOSTHMACError: invalid data value",
      .rejected "GOSTHMACError: unsupported mode",
      .bytes (Spec.hmac (hashOf "streebog512") [1, 2] [7]),
      .bytes (Spec.hmac (hashOf "streebog512") [1, 2] [7, 8]), .done,
      .bytes (Spec.hmac (hashOf "streebog512") [1, 2] [7]), .str "HMAC_GOSTR3411_2012_512",
      .num 64] := by
  rw [C55_histories]
  rfl

end Gost
