import Verif.Source.Names
import Verif.Source.Lookup
import Verif.Source.Lemmas

/-! C113: the names, the numbers of arguments and the exceptions of the package. The check of `Verif.Source.Names` is
evaluated on the whole text; what it accepts behaves, whatever the arguments and the memory are. -/

namespace Gost.Src

/-- The value of a name in a table. -/
def find {α : Type} (x : String) : List (String × α) → Option α
  | [] => none
  | (y, v) :: l => if same x y then some v else find x l

theorem find_eq {α : Type} (x : String) (l : List (String × α)) : find x l = l.lookup x := by
  induction l with
  | nil => rfl
  | cons p l ih =>
    obtain ⟨y, v⟩ := p
    by_cases h : x = y
    · subst h
      simp only [find, same_iff.mpr rfl, if_true, List.lookup, beq_self_eq_true]
    · have h1 : same x y = false := by
        cases e : same x y with
        | false => rfl
        | true => exact absurd (same_iff.mp e) h
      have h2 : (x == y) = false := by simpa using h
      simp only [find, h1, List.lookup, h2]
      exact ih

theorem pair_mem {α : Type} {x : String} {v : α} : ∀ {l : List (String × α)}, l.lookup x = some v → (x, v) ∈ l
  | [], h => by cases h
  | (y, w) :: l, h => by
    by_cases e : x = y
    · subst e
      rw [lookup_eq] at h
      cases h
      exact List.mem_cons_self
    · rw [lookup_ne _ _ e] at h
      exact List.mem_cons_of_mem _ (pair_mem h)

/-- The methods of all classes. -/
def methods : List (String × String × Bool) := methodTable.flatMap (·.2)

/-- The properties of all classes. -/
def properties : List (String × String) := propertyTable.flatMap (·.2)

theorem method_mem {c m f : String} {st : Bool} (h : package.method c m = some (f, st)) : (m, f, st) ∈ methods := by
  replace h : ((methodTable.lookup c).getD []).lookup m = some (f, st) := h
  cases e : methodTable.lookup c with
  | none => rw [e] at h; cases h
  | some ms =>
    rw [e] at h
    exact List.mem_flatMap.mpr ⟨_, pair_mem e, pair_mem h⟩

theorem property_mem {c m f : String} (h : package.property c m = some f) : (m, f) ∈ properties := by
  replace h : ((propertyTable.lookup c).getD []).lookup m = some f := h
  cases e : propertyTable.lookup c with
  | none => rw [e] at h; cases h
  | some ms =>
    rw [e] at h
    exact List.mem_flatMap.mpr ⟨_, pair_mem e, pair_mem h⟩

/-- The exceptions which the package raises by itself, with their messages. -/
def raised : List (String × List String) :=
  [("GOSTOIDError", ["invalid second SID value", "invalid first SID value", "invalid OID value"]),
   ("GOSTCipherError", ["GOSTCipherError: unsupported cipher mode", "GOSTCipherError: unsupported cipher algorithm",
     "GOSTCipherError: invalid key value", "GOSTCipherError: invalid plaintext data",
     "GOSTCipherError: invalid ciphertext data", "GOSTCipherError: invalid padding mode",
     "GOSTCipherError: invalid initialization vector value", "GOSTCipherError: invalid text data",
     "GOSTCipherError: invalid message authentication code size"]),
   ("GOSTHashError", ["GOSTHashError: unsupported hash type", "GOSTHashError: invalid data value"]),
   ("GOSTHMACError", ["GOSTHMACError: unsupported mode", "GOSTHMACError: invalid key value",
     "GOSTHMACError: invalid data value"]),
   ("GOSTPBKDFError", ["GOSTPBKDFError: invalid password value", "GOSTPBKDFError: invalid salt value",
     "GOSTPBKDFError: invalid size of the derived key"]),
   ("GOSTRandomError", ["GOSTRandomError: invalid seed value",
     "GOSTRandomError: exceeded the limit value of the counter", "GOSTRandomError: the seed value is zero"]),
   ("GOSTSignatureError", ["GOSTSignatureError: unsupported signature mode",
     "GOSTSignatureError: invalid parameters of the elliptic curve", "GOSTSignatureError: invalid private key value",
     "GOSTSignatureError: invalid digest value", "GOSTSignatureError: invalid random value",
     "GOSTSignatureError: invalid public key value", "GOSTSignatureError: invalid signature value",
     "GOSTSignatureError: invalid private key"])]

/-- An exception of this list. -/
def isRaised (t : List (String × List String)) (cls msg : String) : Bool :=
  match find cls t with
  | some l => l.any (same msg)
  | none => false

/-! ### All functions: names and exceptions -/

/-- Functions and names of modules exist, exceptions are those of the list. -/
def allRules : Rules where
  glob x := (find x globalTable).isSome
  can f _ := (find f fnTable).isSome
  meth _ _ := true
  prop _ := true
  init _ _ := true
  raises := isRaised raised

theorem all_ok : (fnTable.all fun p => okF allRules p.2) = true := by decide +kernel

theorem methods_exist : (methods.all fun p => (find p.2.1 fnTable).isSome) = true := by decide +kernel

theorem properties_exist : (properties.all fun p => (find p.2 fnTable).isSome) = true := by decide +kernel

theorem fn_mem {f : String} {d : FunDef} (h : package.fn f = some d) : (f, d) ∈ fnTable := pair_mem h

/-- Exceptions which the check excludes: an unknown name, and what the package raises by itself and is not in the
list. -/
def badAll (t : List (String × List String)) : Exc → Prop
  | .name => True
  | .raised cls msg => isRaised t cls msg = false
  | _ => False

theorem all_clean (L n : Nat) (f : String) (args : List Val) (h : Heap) (hf : (package.fn f).isSome = true) :
    Clean (badAll raised) (call package L n f args h) := by
  have can : ∀ {f}, (package.fn f).isSome = true → (find f fnTable).isSome = true := fun h => by
    rw [find_eq]; exact h
  refine call_clean package allRules _ ?_ ?_ ?_ ?_ ?_ ?_ ?_ L n f args h (can hf)
  · intro e p
    cases e <;> first | exact id | cases p
  · intro cls msg r b
    replace b : isRaised raised cls msg = false := b
    rw [show isRaised raised cls msg = true from r] at b
    cases b
  · intro x r
    replace r : (find x globalTable).isSome = true := r
    rw [find_eq] at r
    exact r
  · intro f k r
    replace r : (find f fnTable).isSome = true := r
    rw [find_eq] at r
    obtain ⟨d, e⟩ := Option.isSome_iff_exists.mp r
    exact ⟨d, e, List.all_eq_true.mp all_ok _ (fn_mem e), False.elim⟩
  · exact fun m k _ c f st e => List.all_eq_true.mp methods_exist _ (method_mem e)
  · exact fun a _ c f e => List.all_eq_true.mp properties_exist _ (property_mem e)
  · exact fun c k _ f st e => List.all_eq_true.mp methods_exist _ (method_mem e)

/-- **C113**: no function of the package, called with whatever arguments in whatever memory, uses a variable which has no
value, a name which its module does not have or a function which does not exist. -/
theorem C113_names (L n : Nat) (f : String) (d : FunDef) (hf : package.fn f = some d) (args : List Val) (h : Heap) :
    (call package L n f args h).1 ≠ .error .name :=
  fun e => all_clean L n f args h (by rw [hf]; rfl) _ e trivial

/-- The exceptions of the list, written as a set. -/
def Declared (cls msg : String) : Prop := ∃ l, (cls, l) ∈ raised ∧ msg ∈ l

theorem isRaised_declared {cls msg : String} (h : isRaised raised cls msg = true) : Declared cls msg := by
  unfold isRaised at h
  split at h
  · rename_i l e
    rw [find_eq] at e
    exact ⟨l, pair_mem e, has_mem.mp h⟩
  · cases h

/-- **C113**: what a function of the package raises by itself is one of the seven exception classes of the package with
one of its messages. -/
theorem C113_raises (L n : Nat) (f : String) (d : FunDef) (hf : package.fn f = some d) (args : List Val) (h : Heap)
    (cls msg : String) (e : (call package L n f args h).1 = .error (.raised cls msg)) : Declared cls msg := by
  apply isRaised_declared
  cases r : isRaised raised cls msg with
  | true => rfl
  | false => exact absurd r (all_clean L n f args h (by rw [hf]; rfl) _ e)

/-- C113 for what the caller does with objects: a method and a property, on whatever value. -/
theorem C113_members (L n : Nat) (v : Val) (h : Heap) :
    (∀ m args, (callMeth (ctx L n) v m args h).1 ≠ .error .name) ∧
      (∀ a, (getAttr (ctx L n) v a h).1 ≠ .error .name) ∧
      ∀ cls args, (instantiate (ctx L n) cls args h).1 ≠ .error .name := by
  have ex : ∀ {f : String}, (find f fnTable).isSome = true → (package.fn f).isSome = true := fun h => by
    rw [find_eq] at h; exact h
  have fits : Fits ⟨fun x => (package.globals x).isSome, fun f _ => (package.fn f).isSome, fun _ _ => true, fun _ => true,
      fun _ _ => true, isRaised raised⟩ (badAll raised) (ctx L n) := by
    refine ⟨?_, ?_, fun x h => h, fun f vs h k => all_clean L n f vs h k, ?_, ?_, ?_, ?_⟩
    · intro e p
      cases e <;> first | exact id | cases p
    · intro cls msg r b
      replace b : isRaised raised cls msg = false := b
      rw [show isRaised raised cls msg = true from r] at b
      cases b
    · exact fun m k _ c f st e => ex (List.all_eq_true.mp methods_exist _ (method_mem e))
    · exact fun a _ c f e => ex (List.all_eq_true.mp properties_exist _ (property_mem e))
    · exact fun c k _ f st e => ex (List.all_eq_true.mp methods_exist _ (method_mem e))
    · intro v h e he b
      have := copyVal_plain 10 v h e he
      cases e <;> first | exact b | cases this
  exact ⟨fun m args e => callMeth_clean fits v args rfl h _ e trivial,
    fun a e => getAttr_clean fits v rfl h _ e trivial,
    fun cls args e => instantiate_clean fits cls args rfl h _ e trivial⟩

/-! ### The numbers of arguments -/

/-- The functions which, directly or not, call a method `digest`. It is the only method of the package which takes
different numbers of arguments in different classes: with an object of a wrong class in its place the number would be
wrong. -/
def onDigest : List String :=
  ["GOST34132015mac.hexdigest", "GOST34112012.hexdigest", "R5011132016.digest", "R5011132016.hexdigest",
   "R5011112016._u_first", "R5011112016._u_iter", "R5011112016._f", "R5011112016._calculate_pbkdf",
   "R5011112016.derive", "R5011112016.hexderive", "R132356510062017._rand_iter", "R132356510062017.random"]

/-- The other methods which the text calls, with the number of arguments. -/
def methodCalls : List (String × Nat) :=
  [("bit_length", 0), ("to_bytes", 2), ("get", 2), ("split", 1), ("_cipher_get_c", 0), ("append", 1), ("clear", 0),
   ("_expand_iter_key", 1), ("_expand_iter_key_final", 1), ("_get_pad_size", 1), ("_set_pad_mode_1", 1),
   ("_set_pad_mode_2", 1), ("_set_padding", 2), ("encrypt", 1), ("_get_num_block", 1), ("_get_gamma", 0),
   ("_get_final_block", 1), ("_get_block", 2), ("decrypt", 1), ("_set_init_vect", 1), ("_final_cipher", 1),
   ("_inc_ctr", 1), ("_get_mac_key", 1), ("update", 1), ("_set_pad_mode_3", 1), ("mac_final", 0), ("hex", 0),
   ("_hash_init", 1), ("_hash_lps", 1), ("_hash_get_key", 2), ("_hash_e", 2), ("_hash_g", 3), ("_hash_add_512", 2),
   ("copy", 0), ("hash_final", 0), ("get_hash", 0), ("reset", 0), ("_inc_rand_u", 0), ("_set_size", 1),
   ("_edvards_to_canonical", 0), ("_check_curve", 0), ("_check_p_m", 0), ("_check_x_y", 0), ("_check_p", 0),
   ("_check_q", 0), ("_invert", 2), ("_add", 4), ("_set_e", 1), ("_get_rand_k", 0), ("_mul_point", 1),
   ("_get_r_s", 1), ("_verify_step_1", 2), ("_mul_point", 3)]

/-- Every call has a number of arguments which the function takes. -/
def arityRules : Rules where
  glob x := (find x globalTable).isSome
  can f k := !has onDigest f &&
    match find f fnTable with
    | some d => accepts d k
    | none => false
  meth m k := methodCalls.any fun p => same p.1 m && p.2 == k
  prop _ := true
  init cls k :=
    match find cls methodTable with
    | some ms =>
      match find "__init__" ms with
      | some (f, _) => !has onDigest f &&
        match find f fnTable with
        | some d => accepts d (k + 1)
        | none => false
      | none => true
    | none => true
  raises _ _ := true

theorem arity_ok : (fnTable.all fun p => has onDigest p.1 || okF arityRules p.2) = true := by decide +kernel

theorem arity_methods : (methods.all fun p => methodCalls.all fun q =>
    !same q.1 p.1 || arityRules.can p.2.1 (if p.2.2 then q.2 else q.2 + 1)) = true := by decide +kernel

theorem arity_properties : (properties.all fun p => arityRules.can p.2 1) = true := by decide +kernel

/-- **C113**: a function of the package, called with a number of arguments which it takes, never raises the TypeError of
a call with a wrong number of arguments, in whatever memory it runs and whatever the arguments are; for the functions of
which none of the calls leads to a method `digest`. -/
theorem C113_arity (L n : Nat) (f : String) (d : FunDef) (hf : package.fn f = some d) (hd : f ∉ onDigest)
    (args : List Val) (ha : accepts d args.length = true) (h : Heap) : (call package L n f args h).1 ≠ .error .type := by
  refine fun e => call_clean package arityRules (fun e => e = .type) ?_ ?_ ?_ ?_ ?_ ?_ ?_ L n f args h ?_ _ e rfl
  · rintro e p rfl
    cases p
  · intro cls msg _ b
    cases b
  · intro x r
    replace r : (find x globalTable).isSome = true := r
    rw [find_eq] at r
    exact r
  · intro f k r
    simp only [arityRules, Bool.and_eq_true] at r
    rw [find_eq] at r
    obtain ⟨r1, r2⟩ := r
    split at r2
    · rename_i d e
      refine ⟨d, e, ?_, fun _ => r2⟩
      have := List.all_eq_true.mp arity_ok _ (fn_mem e)
      simp only [Bool.or_eq_true] at this
      exact this.resolve_left (fun e => by rw [e] at r1; cases r1)
    · cases r2
  · intro m k r c f st e
    simp only [arityRules] at r
    obtain ⟨q, hq, r1⟩ := List.any_eq_true.mp r
    simp only [Bool.and_eq_true, beq_iff_eq] at r1
    have := List.all_eq_true.mp (List.all_eq_true.mp arity_methods _ (method_mem e)) q hq
    rw [r1.1, r1.2] at this
    exact this
  · exact fun a _ c f e => List.all_eq_true.mp arity_properties _ (property_mem e)
  · intro c k r f st e
    simp only [arityRules, find_eq] at r
    replace e : ((methodTable.lookup c).getD []).lookup "__init__" = some (f, st) := e
    cases e1 : methodTable.lookup c with
    | none => rw [e1] at e; cases e
    | some ms =>
      rw [e1] at e r
      replace e : ms.lookup "__init__" = some (f, st) := e
      simp only [e] at r
      simp only [arityRules, find_eq]
      exact r
  · simp only [arityRules, Bool.and_eq_true]
    constructor
    · cases e : has onDigest f with
      | false => rfl
      | true => exact absurd (has_mem.mp e) hd
    · rw [find_eq, show fnTable.lookup f = some d from hf]
      exact ha

/-! ### The modules -/

/-- A group of functions which call only each other. `ms` are the methods which they call. -/
def groupRules (S ms : List String) (t : List (String × List String)) : Rules where
  glob x := (find x globalTable).isSome
  can f _ := has S f
  meth m _ := has ms m
  prop a := properties.all fun p => !same p.1 a || has S p.2
  init cls _ :=
    match find cls methodTable with
    | some ms =>
      match find "__init__" ms with
      | some (f, _) => has S f
      | none => true
    | none => true
  raises := isRaised t

/-- The check of a group. -/
def groupOk (S ms : List String) (t : List (String × List String)) : Bool :=
  (S.all fun f =>
    match find f fnTable with
    | some d => okF (groupRules S ms t) d
    | none => false) &&
  methods.all fun p => !has ms p.1 || has S p.2.1

theorem group_clean {S ms : List String} {t : List (String × List String)} (ok : groupOk S ms t = true) (L n : Nat)
    (f : String) (hf : f ∈ S) (args : List Val) (h : Heap) (cls msg : String)
    (e : (call package L n f args h).1 = .error (.raised cls msg)) : ∃ l, (cls, l) ∈ t ∧ msg ∈ l := by
  unfold groupOk at ok
  rw [Bool.and_eq_true] at ok
  obtain ⟨ok1, ok2⟩ := ok
  have := call_clean package (groupRules S ms t) (badAll t) ?_ ?_ ?_ ?_ ?_ ?_ ?_ L n f args h (has_mem.mpr hf) _ e
  · cases r : isRaised t cls msg with
    | false => exact absurd r this
    | true =>
      unfold isRaised at r
      split at r
      · rename_i l e
        rw [find_eq] at e
        exact ⟨l, pair_mem e, has_mem.mp r⟩
      · cases r
  · intro e p
    cases e <;> first | exact id | cases p
  · intro cls msg r b
    replace b : isRaised t cls msg = false := b
    rw [show isRaised t cls msg = true from r] at b
    cases b
  · intro x r
    replace r : (find x globalTable).isSome = true := r
    rw [find_eq] at r
    exact r
  · intro f k r
    have := List.all_eq_true.mp ok1 f (has_mem.mp r)
    rw [find_eq] at this
    split at this
    · rename_i d e
      exact ⟨d, e, this, False.elim⟩
    · cases this
  · intro m k r c f st e
    have := List.all_eq_true.mp ok2 _ (method_mem e)
    simp only [Bool.or_eq_true] at this
    exact this.resolve_left fun e => by rw [show has ms m = true from r] at e; cases e
  · intro a r c f e
    have := List.all_eq_true.mp r _ (property_mem e)
    simp only [Bool.or_eq_true] at this
    exact this.resolve_left fun e => by rw [same_iff.mpr rfl] at e; cases e
  · intro c k r f st e
    simp only [groupRules, find_eq] at r
    replace e : ((methodTable.lookup c).getD []).lookup "__init__" = some (f, st) := e
    cases e1 : methodTable.lookup c with
    | none => rw [e1] at e; cases e
    | some ms =>
      rw [e1] at e r
      replace e : ms.lookup "__init__" = some (f, st) := e
      simp only [e] at r
      exact r

/-- utils.py. -/
def utilsFns : List String :=
  ["Utils.check_value", "Utils.msb", "Utils.add_xor", "Utils.zero_fill", "Utils.bytearray_to_int",
   "Utils.int_to_bytearray", "Utils.compare", "Utils.compare_to_zero"]

/-- gost_34_10_2012.py. -/
def signatureFns : List String :=
  ["Signature.new", "GOST34102012.__init__", "GOST34102012._set_size", "GOST34102012._check_p_m",
   "GOST34102012._check_x_y", "GOST34102012._check_p", "GOST34102012._check_q", "GOST34102012._check_curve",
   "GOST34102012._invert", "GOST34102012._invert.gcdex", "GOST34102012._add", "GOST34102012._mul_point",
   "GOST34102012._edvards_to_canonical", "GOST34102012._get_rand_k", "GOST34102012._set_e", "GOST34102012.sign",
   "GOST34102012._get_r_s", "GOST34102012._verify_step_1", "GOST34102012.verify", "GOST34102012.public_key_generate"]

/-- gost_34_12_2015.py, without the destructors: these call `clear`, which all classes have. -/
def blockFns : List String :=
  ["GOST34122015Kuznechik.__init__", "GOST34122015Kuznechik._cipher_s", "GOST34122015Kuznechik._cipher_s_reverse",
   "GOST34122015Kuznechik._cipher_r", "GOST34122015Kuznechik._cipher_r_reverse", "GOST34122015Kuznechik._cipher_l",
   "GOST34122015Kuznechik._cipher_l_reverse", "GOST34122015Kuznechik._cipher_get_c", "GOST34122015Kuznechik.block_size",
   "GOST34122015Kuznechik.key_size", "GOST34122015Kuznechik.decrypt", "GOST34122015Kuznechik.encrypt",
   "GOST34122015Kuznechik.clear", "GOST34122015Magma.__init__", "GOST34122015Magma._expand_iter_key",
   "GOST34122015Magma._expand_iter_key_final", "GOST34122015Magma._cipher_t", "GOST34122015Magma._cipher_add_32",
   "GOST34122015Magma._cipher_g", "GOST34122015Magma._cipher_g_iter_result", "GOST34122015Magma._cipher_g_iter",
   "GOST34122015Magma._cipher_g_prev", "GOST34122015Magma._cipher_g_fin", "GOST34122015Magma.block_size",
   "GOST34122015Magma.key_size", "GOST34122015Magma.decrypt", "GOST34122015Magma.encrypt", "GOST34122015Magma.clear"]

/-- gost_oid.py. -/
def oidFns : List String :=
  ["Oid._len_int", "Oid._len_oid_octet", "Oid._int_to_octet", "Oid._encode_octet", "ObjectIdentifier.__init__",
   "ObjectIdentifier.__str__", "ObjectIdentifier.name", "ObjectIdentifier.digit", "ObjectIdentifier.octet"]

/-- The rows of `raised` of one class. -/
def raisedBy (cls : String) : List (String × List String) := raised.filter fun p => p.1 == cls

theorem signature_group : groupOk ("ObjectIdentifier.__init__" :: signatureFns ++ utilsFns)
    ["_set_size", "get", "_edvards_to_canonical", "_check_curve", "_check_p_m", "_check_x_y", "_check_p", "_check_q",
     "_invert", "_add", "_set_e", "_get_rand_k", "_mul_point", "_get_r_s", "_verify_step_1"]
    (raisedBy "GOSTSignatureError") = true := by decide +kernel

theorem oid_group : groupOk oidFns ["bit_length", "to_bytes", "get", "split"] (raisedBy "GOSTOIDError") = true := by
  decide +kernel

theorem block_group : groupOk ("ObjectIdentifier.__init__" :: blockFns ++ utilsFns)
    ["_cipher_get_c", "append", "_expand_iter_key", "_expand_iter_key_final"] [] = true := by decide +kernel

theorem raisedBy_mem {c cls : String} {l : List String} (h : (cls, l) ∈ raisedBy c) : cls = c := by
  simpa using (List.mem_filter.mp h).2

/-- **C113**: by themselves the functions of the signature module raise only GOSTSignatureError, those of the module of
object identifiers only GOSTOIDError, and those of the block ciphers and utils nothing. -/
theorem C113_modules (L n : Nat) (f : String) (args : List Val) (h : Heap) (cls msg : String)
    (e : (call package L n f args h).1 = .error (.raised cls msg)) :
    (f ∈ signatureFns → cls = "GOSTSignatureError") ∧ (f ∈ oidFns → cls = "GOSTOIDError") ∧ f ∉ blockFns ∧
      f ∉ utilsFns := by
  refine ⟨fun hf => ?_, fun hf => ?_, fun hf => ?_, fun hf => ?_⟩
  · obtain ⟨l, h1, -⟩ := group_clean signature_group L n f (by simp [hf]) args h cls msg e
    exact raisedBy_mem h1
  · obtain ⟨l, h1, -⟩ := group_clean oid_group L n f hf args h cls msg e
    exact raisedBy_mem h1
  · obtain ⟨l, h1, -⟩ := group_clean block_group L n f (by simp [hf]) args h cls msg e
    cases h1
  · obtain ⟨l, h1, -⟩ := group_clean block_group L n f (by simp [hf]) args h cls msg e
    cases h1

/-! ### Concrete cases -/

/-- `Modes.new` with three arguments and the dictionary of keyword arguments meets the hypotheses of `C113_arity`. -/
example (L n : Nat) (a b c : Val) (h : Heap) : (call package L n "Modes.new" [a, b, c, .dict []] h).1 ≠ .error .type :=
  C113_arity L n "Modes.new" _ Fn.Modes.new (by decide) _ rfl h

example (L n : Nat) (h : Heap) : (call package L n "GOST34102012.verify" [.none, .none, .none, .none] h).1 ≠ .error .name :=
  C113_names L n _ _ Fn.GOST34102012.verify _ h

/-- What the check is for: a function which uses a variable on a path where it has no value is refused, and it does raise
the exception. -/
example : okF allRules ⟨["c"], [], false, [.if_ (.name "c") [.assign (.name "x") (.int 1)] [], .ret (.name "x")]⟩ = false ∧
    ∀ h, run (ctx 0 0) ⟨["c"], [], false, [.if_ (.name "c") [.assign (.name "x") (.int 1)] [], .ret (.name "x")]⟩
      [.bool false] h = fail .name h :=
  ⟨by decide +kernel, fun _ => rfl⟩

end Gost.Src
