import Verif.Proofs.FastHash
import Verif.Props.Examples

/-! Properties C23 to C26: the hash function. -/

namespace Gost
open Spec (hashOf IsHashName effective HashCall HashOut)
open Spec.Streebog (LPS l)

/-! ### C24 -/

/-- C24, the tables: entry `x` of table `i` is the map l of the standard applied to the word which
has π(x) in byte `i` and zeros elsewhere. -/
theorem C24_tables (i : Nat) (hi : i < 8) (x : UInt8) :
    (tTable.getD i []).getD x.toNat 0 = l ((Spec.pi x).toNat * 256 ^ i) :=
  Hash.tEntry_eq i hi x

/-- C24, the round function: `_hash_lps` is L∘P∘S of the standard on every block of 64 bytes. -/
theorem C24_lps (d : Bytes) (hd : d.length = 64) : Hash.lps d = LPS d := Hash.lps_eq d hd

example : (Ex.count 0 64).length = 64 := by decide

/-- The constants of the code are those of the standard. -/
theorem C24_constants (i : Nat) (hi : i < 12) : Hash.cConst i = Spec.Streebog.C (i + 1) :=
  Hash.cConst_eq i hi

/-! ### C23 -/

theorem new_none (name : String) (hn : IsHashName name) :
    HashObj.new name = .ok (HashObj.hashInit name) := by
  unfold HashObj.new
  rw [if_neg (by rcases hn with h | h <;> simp [h])]
  rfl

theorem new_some (name : String) (hn : IsHashName name) (v : PyVal) (d : Bytes)
    (hv : v.data? = some d) (s : HashObj) (hs : HashObj.new name (some v) = .ok s) :
    s.name = name ∧ HashObj.Holds (HashObj.ivOf name) d s := by
  unfold HashObj.new HashObj.init at hs
  rw [if_neg (by rcases hn with h | h <;> simp [h])] at hs
  simp only [Option.getD_some] at hs
  by_cases he : v.isEmpty = true
  · have hd : d = [] := by
      cases v with
      | bytes b => simp [PyVal.isEmpty] at he; simp [PyVal.data?] at hv; rw [← hv, he]
      | bytearray b => simp [PyVal.isEmpty] at he; simp [PyVal.data?] at hv; rw [← hv, he]
      | other => simp [PyVal.data?] at hv
    rw [if_pos he] at hs
    cases hs
    rw [hd]
    exact ⟨rfl, HashObj.hashInit_holds name⟩
  · rw [if_neg he] at hs
    simp only [HashObj.update, hv] at hs
    cases hs
    have := (HashObj.hashInit_holds name).update (HashObj.ivOf_length name) d
    have e : effective [] d = d := by simp [effective, Spec.rest]
    rw [e] at this
    exact ⟨HashObj.updateBytes_name _ _, this⟩

/-- C23 for an object created with the message. -/
theorem C23_new (name : String) (hn : IsHashName name) (v : PyVal) (d : Bytes)
    (hv : v.data? = some d) :
    ∃ s, HashObj.new name (some v) = .ok s ∧ s.digest = hashOf name d := by
  have hex : ∃ s, HashObj.new name (some v) = .ok s := by
    unfold HashObj.new HashObj.init
    rw [if_neg (by rcases hn with h | h <;> simp [h])]
    simp only [Option.getD_some, HashObj.update, hv]
    by_cases he : v.isEmpty = true
    · exact ⟨_, if_pos he⟩
    · exact ⟨_, if_neg he⟩
  obtain ⟨s, hs⟩ := hex
  obtain ⟨h1, h2⟩ := new_some name hn v d hv s hs
  subst h1
  exact ⟨s, hs, h2.digest hn⟩

theorem fresh_update (name : String) (hn : IsHashName name) (d : Bytes) :
    ((HashObj.hashInit name).updateBytes d).digest = hashOf name d := by
  have h := (HashObj.hashInit_holds name).update (HashObj.ivOf_length name) d
  have e : effective [] d = d := by simp [effective, Spec.rest]
  rw [e] at h
  have hname : ((HashObj.hashInit name).updateBytes d).name = name :=
    HashObj.updateBytes_name _ _
  have := HashObj.Holds.digest (s := (HashObj.hashInit name).updateBytes d) (M := d)
    (by rw [hname]; exact h) (by rw [hname]; exact hn)
  rw [this, hname]

/-- C23 for an object created without data and updated once with the message. -/
theorem C23_update (name : String) (hn : IsHashName name) (v : PyVal) (d : Bytes)
    (hv : v.data? = some d) :
    ∃ s, HashObj.new name = .ok s ∧ (s.update v).2 = .ok () ∧
      (s.update v).1.digest = hashOf name d := by
  refine ⟨_, new_none name hn, ?_⟩
  simp only [HashObj.update, hv]
  exact ⟨trivial, fresh_update name hn d⟩

/-- C23 after a reset, whatever the object did before. -/
theorem C23_reset (s : HashObj) (hn : IsHashName s.name) (v : PyVal) (d : Bytes)
    (hv : v.data? = some d) :
    (s.reset.update v).2 = .ok () ∧ (s.reset.update v).1.digest = hashOf s.name d := by
  unfold HashObj.reset
  simp only [HashObj.update, hv]
  exact ⟨trivial, fresh_update s.name hn d⟩

/-- The two variants spelled out: 64 bytes from the zero vector, the upper 32 bytes from the
vector of ones. -/
theorem C23_variants (M : Bytes) :
    hashOf "streebog512" M = Spec.Streebog.hash (List.replicate 64 0) M ∧
    hashOf "streebog256" M = (Spec.Streebog.hash (List.replicate 64 1) M).drop 32 := ⟨rfl, rfl⟩

/-- A case, and the value of the specification on a message of the standard (its first example,
the 63 bytes "0123…012", streebog256). -/
example : IsHashName "streebog256" ∧ (PyVal.bytes (Ex.count 48 3)).data? = some [48, 49, 50] :=
  ⟨Or.inr rfl, by decide⟩

/-- The first example of the standard. -/
def ex1 : Bytes := (List.range 63).map fun i => UInt8.ofNat (48 + i % 10)

theorem hashOf_ex1 : hashOf "streebog256" ex1 =
    [0x9d, 0x15, 0x1e, 0xef, 0xd8, 0x59, 0x0b, 0x89, 0xda, 0xa6, 0xba, 0x6c, 0xb7, 0x4a, 0xf9,
     0x27, 0x5d, 0xd0, 0x51, 0x02, 0x6b, 0xb1, 0x49, 0xa4, 0x52, 0xfd, 0x84, 0xe5, 0xe5, 0x7b,
     0x55, 0x00] := by
  rw [(C23_variants ex1).2, Fast.hash_eq _ _ (by simp)]
  decide +kernel

/-! ### C25 -/

/-- The message for which the object stands is changed by `update` as described by `effective`;
this is what the code does for every sequence of updates, from a new object or from any object
which stands for a message `M`. -/
theorem updates_effective (name : String) (M : Bytes) (s : HashObj) (hname : s.name = name)
    (hs : HashObj.Holds (HashObj.ivOf name) M s) (ds : List Bytes) :
    (ds.foldl HashObj.updateBytes s).name = name ∧
    HashObj.Holds (HashObj.ivOf name) (ds.foldl effective M) (ds.foldl HashObj.updateBytes s) := by
  induction ds generalizing s M with
  | nil => exact ⟨hname, hs⟩
  | cons d ds ih =>
    exact ih _ _ (by rw [HashObj.updateBytes_name]; exact hname)
      (hs.update (HashObj.ivOf_length name) d)

/-- C25, exact behaviour: after any sequence of updates the digest is the hash of the effective
message. -/
theorem C25_exact (name : String) (hn : IsHashName name) (ds : List Bytes) :
    ∃ s, HashObj.new name = .ok s ∧
      (ds.foldl HashObj.updateBytes s).digest = hashOf name (ds.foldl effective []) := by
  refine ⟨_, new_none name hn, ?_⟩
  obtain ⟨h1, h2⟩ := updates_effective name [] _ rfl (HashObj.hashInit_holds name) ds
  have := HashObj.Holds.digest (s := ds.foldl HashObj.updateBytes (HashObj.hashInit name))
    (by rw [h1]; exact h2) (by rw [h1]; exact hn)
  rw [this, h1]

/-- The statement of C25. -/
def C25_statement : Prop :=
  ∀ name, IsHashName name → ∀ ds : List Bytes, ∀ s, HashObj.new name = .ok s →
    (ds.foldl HashObj.updateBytes s).digest = (s.updateBytes ds.flatten).digest

/-- C25 when no update completes a started block exactly. Missing: sequences in which one does,
where the claim is false (`C25_negation`). -/
theorem C25_concat_partial (name : String) (hn : IsHashName name) (ds : List Bytes)
    (hd : Spec.AllHarmless [] ds) (s : HashObj) (hs : HashObj.new name = .ok s) :
    (ds.foldl HashObj.updateBytes s).digest = (s.updateBytes ds.flatten).digest := by
  rw [new_none name hn] at hs
  cases hs
  obtain ⟨s', h1, h2⟩ := C25_exact name hn ds
  rw [new_none name hn] at h1
  cases h1
  rw [h2, effective_all [] ds hd, fresh_update name hn, List.nil_append]

/-- Such a sequence: pieces of 10, 60, 0 and 64 bytes. -/
example : Spec.AllHarmless [] [Ex.count 0 10, Ex.count 0 60, [], Ex.count 0 64] := by
  simp [Spec.AllHarmless, Spec.Harmless, Ex.count_length]

/-- The updates which break the property: 32 bytes, then 32 bytes. -/
def halves : List Bytes := [List.replicate 32 0, List.replicate 32 0]

theorem halves_effective : halves.foldl effective [] = List.replicate 96 0 := by decide

/-- C25 is false of the code, for both variants: two updates with 32 zero bytes do not give the
digest of 64 zero bytes. -/
theorem C25_negation (name : String) (hn : IsHashName name) :
    ∃ s, HashObj.new name = .ok s ∧
      (halves.foldl HashObj.updateBytes s).digest ≠ (s.updateBytes halves.flatten).digest := by
  obtain ⟨s, h1, h2⟩ := C25_exact name hn halves
  refine ⟨s, h1, ?_⟩
  rw [new_none name hn] at h1
  cases h1
  rw [h2, fresh_update name hn, halves_effective,
    show halves.flatten = List.replicate 64 0 by decide]
  rcases hn with rfl | rfl
  · rw [(C23_variants _).1, (C23_variants _).1, Fast.hash_eq _ _ (by simp), Fast.hash_eq _ _ (by simp)]
    decide +kernel
  · rw [(C23_variants _).2, (C23_variants _).2, Fast.hash_eq _ _ (by simp), Fast.hash_eq _ _ (by simp)]
    decide +kernel

theorem C25_statement_false : ¬ C25_statement := by
  intro h
  obtain ⟨s, h1, h2⟩ := C25_negation "streebog512" (Or.inl rfl)
  exact h2 (h _ (Or.inl rfl) halves s h1)

/-! ### C26 -/

/-- The calls on a list of objects of the model. -/
def hashStore (objs : List HashObj) : HashCall → List HashObj × HashOut
  | .new big =>
    match HashObj.new (if big then "streebog512" else "streebog256") with
    | .ok s => (objs ++ [s], .done)
    | .error _ => (objs, .rejected)
  | .update i v =>
    match objs[i]? with
    | some s =>
      match s.update (match v with | some d => .bytes d | none => .other) with
      | (s, .ok ()) => (objs.set i s, .done)
      | (s, .error _) => (objs.set i s, .rejected)
    | none => (objs, .noObject)
  | .digest i =>
    match objs[i]? with
    | some s => (objs, .bytes s.digest)
    | none => (objs, .noObject)
  | .hexdigest i =>
    match objs[i]? with
    | some s => (objs, .text s.hexdigest)
    | none => (objs, .noObject)
  | .copy i =>
    match objs[i]? with
    | some s => (objs ++ [s.copy], .done)
    | none => (objs, .noObject)
  | .reset i =>
    match objs[i]? with
    | some s => (objs.set i s.reset, .done)
    | none => (objs, .noObject)

/-- One object stands for one entry of the log. -/
structure Stands (s : HashObj) (e : String × Bytes) : Prop where
  name : s.name = e.1
  valid : IsHashName e.1
  holds : HashObj.Holds (HashObj.ivOf e.1) e.2 s

theorem Stands.digest {s : HashObj} {e : String × Bytes} (h : Stands s e) :
    s.digest = hashOf e.1 e.2 := by
  have := HashObj.Holds.digest (s := s) (M := e.2) (by rw [h.name]; exact h.holds)
    (by rw [h.name]; exact h.valid)
  rw [this, h.name]

/-- All objects stand for the entries of the log. -/
def StandAll (objs : List HashObj) (log : List (String × Bytes)) : Prop :=
  objs.length = log.length ∧ ∀ (i : Nat) s e, objs[i]? = some s → log[i]? = some e → Stands s e

theorem StandAll.append {objs : List HashObj} {log : List (String × Bytes)}
    (h : StandAll objs log) {s : HashObj} {e : String × Bytes} (hs : Stands s e) :
    StandAll (objs ++ [s]) (log ++ [e]) := by
  refine ⟨by simp [h.1], ?_⟩
  intro i t f ht hf
  rcases Nat.lt_trichotomy i objs.length with hi | hi | hi
  · rw [List.getElem?_append_left hi] at ht
    rw [List.getElem?_append_left (by rw [← h.1]; exact hi)] at hf
    exact h.2 i t f ht hf
  · subst hi
    rw [List.getElem?_append_right (Nat.le_refl _)] at ht
    rw [h.1, List.getElem?_append_right (Nat.le_refl _)] at hf
    simp at ht hf
    subst ht hf
    exact hs
  · rw [List.getElem?_eq_none (by simp; omega)] at ht
    cases ht

theorem StandAll.set {objs : List HashObj} {log : List (String × Bytes)}
    (h : StandAll objs log) (i : Nat) {s : HashObj} {e : String × Bytes} (hs : Stands s e) :
    StandAll (objs.set i s) (log.set i e) := by
  refine ⟨by simp [h.1], ?_⟩
  intro j t f ht hf
  by_cases hij : i = j
  · subst hij
    rw [List.getElem?_set] at ht hf
    rw [if_pos rfl] at ht hf
    split at ht
    · split at hf
      · cases ht; cases hf; exact hs
      · cases hf
    · cases ht
  · rw [List.getElem?_set_ne hij] at ht hf
    exact h.2 j t f ht hf

theorem StandAll.get {objs : List HashObj} {log : List (String × Bytes)}
    (h : StandAll objs log) (i : Nat) :
    (objs[i]? = none ∧ log[i]? = none) ∨
      ∃ s e, objs[i]? = some s ∧ log[i]? = some e ∧ Stands s e := by
  by_cases hi : i < objs.length
  · right
    have hi' : i < log.length := by rw [← h.1]; exact hi
    exact ⟨objs[i], log[i], by simp [hi], by simp [hi'], h.2 i _ _ (by simp [hi]) (by simp [hi'])⟩
  · left
    exact ⟨List.getElem?_eq_none (by omega), List.getElem?_eq_none (by have := h.1; omega)⟩

theorem StandAll.set_self {objs : List HashObj} {log : List (String × Bytes)}
    (h : StandAll objs log) (i : Nat) {s : HashObj} (hs : objs[i]? = some s) :
    StandAll (objs.set i s) log := by
  have : objs.set i s = objs := by
    apply List.ext_getElem?
    intro j
    rw [List.getElem?_set]
    split
    · rename_i hij
      subst hij
      split
      · exact hs.symm
      · rename_i hn
        rw [List.getElem?_eq_none (by omega)]
    · rfl
  rw [this]; exact h

theorem hashStore_step {objs : List HashObj} {log : List (String × Bytes)}
    (h : StandAll objs log) (c : HashCall) :
    StandAll (hashStore objs c).1 (Spec.hashLog pyHex log c).1 ∧
      (hashStore objs c).2 = (Spec.hashLog pyHex log c).2 := by
  cases c with
  | new big =>
    have hn : IsHashName (if big = true then "streebog512" else "streebog256") := by
      cases big
      · exact Or.inr rfl
      · exact Or.inl rfl
    simp only [hashStore, Spec.hashLog, new_none _ hn]
    exact ⟨h.append ⟨rfl, hn, HashObj.hashInit_holds _⟩, trivial⟩
  | update i v =>
    rcases h.get i with ⟨h1, h2⟩ | ⟨s, e, h1, h2, hs⟩
    · simp only [hashStore, Spec.hashLog, h1, h2]
      exact ⟨h, trivial⟩
    · obtain ⟨n, M⟩ := e
      cases v with
      | some d =>
        simp only [hashStore, Spec.hashLog, h1, h2, HashObj.update, PyVal.data?]
        refine ⟨h.set i ⟨?_, hs.valid, hs.holds.update (HashObj.ivOf_length _) d⟩, trivial⟩
        rw [HashObj.updateBytes_name]
        exact hs.name
      | none =>
        simp only [hashStore, Spec.hashLog, h1, h2, HashObj.update, PyVal.data?]
        exact ⟨h.set_self i h1, trivial⟩
  | digest i =>
    rcases h.get i with ⟨h1, h2⟩ | ⟨s, e, h1, h2, hs⟩
    · simp only [hashStore, Spec.hashLog, h1, h2]
      exact ⟨h, trivial⟩
    · obtain ⟨n, M⟩ := e
      simp only [hashStore, Spec.hashLog, h1, h2, hs.digest]
      exact ⟨h, trivial⟩
  | hexdigest i =>
    rcases h.get i with ⟨h1, h2⟩ | ⟨s, e, h1, h2, hs⟩
    · simp only [hashStore, Spec.hashLog, h1, h2]
      exact ⟨h, trivial⟩
    · obtain ⟨n, M⟩ := e
      simp only [hashStore, Spec.hashLog, h1, h2, HashObj.hexdigest, hs.digest]
      exact ⟨h, trivial⟩
  | copy i =>
    rcases h.get i with ⟨h1, h2⟩ | ⟨s, e, h1, h2, hs⟩
    · simp only [hashStore, Spec.hashLog, h1, h2]
      exact ⟨h, trivial⟩
    · simp only [hashStore, Spec.hashLog, h1, h2, HashObj.copy]
      exact ⟨h.append hs, trivial⟩
  | reset i =>
    rcases h.get i with ⟨h1, h2⟩ | ⟨s, e, h1, h2, hs⟩
    · simp only [hashStore, Spec.hashLog, h1, h2]
      exact ⟨h, trivial⟩
    · obtain ⟨n, M⟩ := e
      simp only [hashStore, Spec.hashLog, h1, h2, HashObj.reset, hs.name]
      exact ⟨h.set i ⟨rfl, hs.valid, HashObj.hashInit_holds _⟩, trivial⟩

/-- C26: for every sequence of calls on any number of objects, in any interleaving, all results are
those of a log in which each object is a name and a message of its own: `digest` and `hexdigest`
leave it unchanged, `copy` makes a new entry with the same message, `reset` empties it, a rejected
update leaves it unchanged, and no call touches another entry. -/
theorem C26_histories (cs : List HashCall) :
    Spec.outputs hashStore [] cs = Spec.outputs (Spec.hashLog pyHex) [] cs := by
  suffices h : ∀ objs log, StandAll objs log →
      Spec.outputs hashStore objs cs = Spec.outputs (Spec.hashLog pyHex) log cs from
    h [] [] ⟨rfl, by intro i s e h; simp at h⟩
  induction cs with
  | nil => intro objs log _; rfl
  | cons c cs ih =>
    intro objs log h
    obtain ⟨h1, h2⟩ := hashStore_step h c
    simp only [Spec.outputs]
    rw [h2, ih _ _ h1]

/-- The length of every digest in every history: `digest_size` of the object. -/
theorem C26_digest_size (name : String) (hn : IsHashName name) (M : Bytes) :
    (hashOf name M).length = if name = "streebog512" then 64 else 32 := by
  rcases hn with rfl | rfl
  · rw [(C23_variants M).1, HashObj.hash_length _ _ (by simp)]; rfl
  · rw [(C23_variants M).2, List.length_drop, HashObj.hash_length _ _ (by simp)]; rfl

/-- The same on an object: after any sequence of updates the digest has `digest_size` bytes. -/
theorem C26_digest_length (name : String) (hn : IsHashName name) (ds : List Bytes) :
    ∃ s, HashObj.new name = .ok s ∧
      (ds.foldl HashObj.updateBytes s).digest.length =
        (ds.foldl HashObj.updateBytes s).digestSize := by
  obtain ⟨s, h1, h2⟩ := C25_exact name hn ds
  refine ⟨s, h1, ?_⟩
  rw [h2, C26_digest_size name hn]
  rw [new_none name hn] at h1
  cases h1
  unfold HashObj.digestSize
  rw [(updates_effective name [] _ rfl (HashObj.hashInit_holds name) ds).1]

/-- A history with a copy which goes its own way, a rejected update and a reset. -/
example : Spec.outputs hashStore []
    [.new true, .update 0 (some [1]), .copy 0, .update 1 (some [2]), .update 0 none, .digest 0,
      .digest 1, .reset 1, .digest 1] =
    [.done, .done, .done, .done, .rejected, .bytes (hashOf "streebog512" [1]),
      .bytes (hashOf "streebog512" [1, 2]), .done, .bytes (hashOf "streebog512" [])] := by
  rw [C26_histories]
  rfl

end Gost
