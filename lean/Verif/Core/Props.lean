import Verif.Core.Mod
import Verif.Core.Element
import Mathlib.Data.ZMod.Basic
import Mathlib.Algebra.Field.ZMod
import Mathlib.Tactic.NormNum.Prime
import Mathlib.Tactic.Linarith

/-! # Properties C40 (modular helpers) and C41 (field elements) -/

namespace Verif.CoreMod

/-- `z` is the canonical representative of `a` modulo `m`. -/
def Canon (z a m : Int) : Prop := 0 ≤ z ∧ z < m ∧ z ≡ a [ZMOD m]

theorem canon_mod (a m : Int) (hm : 0 < m) : Big.mod a m = .ok (a % m) ∧ Canon (a % m) a m := by
  refine ⟨by simp [Big.mod, hm.ne'], Int.emod_nonneg _ hm.ne', Int.emod_lt_of_pos _ hm,
    Int.mod_modEq _ _⟩

/-- there is exactly one canonical representative, so the theorems below fix the result -/
theorem canon_unique {z z' a m : Int} (h : Canon z a m) (h' : Canon z' a m) : z = z' := by
  obtain ⟨h1, h2, h3⟩ := h
  obtain ⟨h4, h5, h6⟩ := h'
  have := h3.trans h6.symm
  rw [Int.ModEq, Int.emod_eq_of_lt h1 h2, Int.emod_eq_of_lt h4 h5] at this
  exact this

/-- **C40** `Add`, `Mul`, `Neg` return the canonical representative for every positive modulus. -/
theorem C40_add_mul_neg (x y m : Int) (hm : 0 < m) :
    (∃ z, add (some x) (some y) (some m) = .ok z ∧ Canon z (x + y) m) ∧
    (∃ z, mul (some x) (some y) (some m) = .ok z ∧ Canon z (x * y) m) ∧
    (∃ z, neg (some x) (some m) = .ok z ∧ Canon z (-x) m) :=
  ⟨⟨_, canon_mod (x + y) m hm⟩, ⟨_, canon_mod (x * y) m hm⟩, ⟨_, canon_mod (-x) m hm⟩⟩

/-- **C40** with a nil modulus `Add`/`Mul` are exact integer operations; nil operands are errors. -/
theorem C40_nil (x y : Int) (a m : Option Int) :
    add (some x) (some y) none = .ok (x + y) ∧ mul (some x) (some y) none = .ok (x * y) ∧
    add none a m = .err ∧ add a none m = .err ∧ mul none a m = .err ∧ mul a none m = .err ∧
    neg none m = .err ∧ neg a none = .err ∧ inv none m = .err ∧ inv a none = .err ∧
    exp none a m = .err ∧ exp a none m = .err := by
  cases a <;> simp [add, mul, neg, inv, exp]

/-- **C40** `Inv` returns the inverse in `[0,m)` iff one exists and an error otherwise. -/
theorem C40_inv (x m : Int) (hm : 1 < m) :
    ((∃ z, x * z ≡ 1 [ZMOD m]) → ∃ z, inv (some x) (some m) = .ok z ∧ 0 ≤ z ∧ z < m ∧
        x * z ≡ 1 [ZMOD m] ∧ ∀ z', 0 ≤ z' → z' < m → x * z' ≡ 1 [ZMOD m] → z' = z) ∧
    ((¬ ∃ z, x * z ≡ 1 [ZMOD m]) → inv (some x) (some m) = .err) := by
  unfold inv
  cases h : Big.modInverse x m with
  | none =>
    have := Big.modInverse_none_spec h
    exact ⟨fun ⟨z, hz⟩ => absurd hz (this z), fun _ => by simp only [h]⟩
  | some z =>
    obtain ⟨h1, h2, h3⟩ := Big.modInverse_spec (by omega) h
    rw [abs_of_pos (by omega)] at h2
    refine ⟨fun _ => ⟨z, by simp only [h], h1, h2, h3, ?_⟩, fun hn => absurd ⟨z, h3⟩ hn⟩
    intro z' h4 h5 h6
    have e : z' ≡ z [ZMOD m] := by
      have e1 : z' * (x * z) ≡ z' * 1 [ZMOD m] := h3.mul_left _
      have e2 : z * (x * z') ≡ z * 1 [ZMOD m] := h6.mul_left _
      have e3 : z' * (x * z) = z * (x * z') := by ring
      rw [mul_one] at e1 e2
      rw [e3] at e1
      exact e1.symm.trans e2
    rw [Int.ModEq, Int.emod_eq_of_lt h4 h5, Int.emod_eq_of_lt h1 h2] at e
    exact e

/-- **C40** `Exp` with a non-negative exponent. -/
theorem C40_exp (x m : Int) (n : Nat) (hm : 0 < m) :
    ∃ z, exp (some x) (some (n : Int)) (some m) = .ok (some z) ∧ Canon z (x ^ n) m := by
  refine ⟨x ^ n % m, ?_, (canon_mod (x ^ n) m hm).2⟩
  simp [exp, Big.exp, hm.ne']

/-- **C40** `Exp` with a negative exponent and an invertible base. -/
theorem C40_exp_neg (x m : Int) (n : Nat) (hn : 0 < n) (hm : 0 < m)
    (hx : ∃ z, x * z ≡ 1 [ZMOD m]) :
    ∃ z, exp (some x) (some (-(n : Int))) (some m) = .ok (some z) ∧ 0 ≤ z ∧ z < m ∧
      x ^ n * z ≡ 1 [ZMOD m] := by
  have h0 : ¬ (0 : Int) ≤ -(n : Int) := by omega
  cases h : Big.modInverse x m with
  | none => obtain ⟨z, hz⟩ := hx; exact absurd hz (Big.modInverse_none_spec h z)
  | some i =>
    obtain ⟨-, -, h3⟩ := Big.modInverse_spec hm.ne' h
    refine ⟨i ^ n % m, ?_, Int.emod_nonneg _ hm.ne', Int.emod_lt_of_pos _ hm, ?_⟩
    · simp only [exp, Big.exp, hm.ne', if_false, h0, h]; simp
    · have e1 : x ^ n * (i ^ n % m) ≡ x ^ n * i ^ n [ZMOD m] := (Int.mod_modEq _ _).mul_left _
      rw [← mul_pow] at e1
      have := h3.pow n
      rw [one_pow] at this
      exact e1.trans this

/-- **C40** (finding) `Exp` does *not* report an error when the result does not exist: it returns a
nil pointer together with a nil error. -/
theorem C40_exp_missing_error : exp (some 2) (some (-1)) (some 4) = .ok none := by decide

/-- **C40** `In` accepts exactly `0 ≤ x < m`; `ConstantTimeEq` is equality (nil equal only to nil). -/
theorem C40_in_eq (x m : Option Int) :
    (inZm x m = true ↔ ∃ a b, x = some a ∧ m = some b ∧ 0 ≤ a ∧ a < b) ∧
    (constantTimeEq x m = true ↔ x = m) := by
  constructor
  · cases x <;> cases m <;> simp [inZm]
  · cases x <;> cases m <;> simp [constantTimeEq, constantTimeEqByte]
    rename_i a b
    constructor
    · intro h
      by_cases h1 : Big.bytes a = Big.bytes b
      · by_cases h2 : Big.sign a = Big.sign b
        · have h3 := Bytes.natToBE_inj h1
          rcases Int.natAbs_eq_natAbs_iff.1 h3 with h4 | h4
          · exact h4
          · unfold Big.sign at h2
            split at h2 <;> split at h2 <;> try split at h2
            all_goals omega
        · simp [h1, h2] at h
      · simp [h1] at h
    · rintro rfl; simp

/-- **C40** `Rand` returns only values in `(1, m)` provided the reader's `Int` stays below `m`. -/
theorem C40_rand (m : Int) (draws : List Int) (hd : ∀ r ∈ draws, 0 ≤ r ∧ r < m) (r : Int)
    (h : rand (some m) draws = .ok (some r)) : 1 < r ∧ r < m := by
  unfold rand at h
  split at h
  · cases h
  · rename_i m' hm
    split at h
    · cases h
    · cases hm
      have h' : draws.find? (fun r => decide (1 < r)) = some r := by simpa using h
      refine ⟨by simpa using List.find?_some h', (hd r (List.mem_of_find?_eq_some h')).2⟩

example : add (some 5) (some 9) (some 11) = .ok 3 ∧ neg (some 3) (some 11) = .ok 8 ∧
    inv (some 3) (some 11) = .ok 4 ∧ inv (some 2) (some 4) = .err ∧
    exp (some 3) (some (-2)) (some 11) = .ok (some 5) ∧
    rand (some 11) [1, 0, 7, 3] = .ok (some 7) := by decide +kernel

end Verif.CoreMod

namespace Verif.Elem

/-- canonical element of the field `f` -/
def Valid (f : Int) (x : Element) : Prop := x.modulus = f ∧ 0 ≤ x.value ∧ x.value < f

theorem newElement_ok {f v : Int} {e : Element} (h : newElement f v = .ok e) :
    e = ⟨f, v⟩ ∧ Valid f e := by
  unfold newElement isValid at h
  split at h
  · rename_i hc
    simp only [Bool.and_eq_true, decide_eq_true_eq] at hc
    cases h
    exact ⟨rfl, rfl, hc.2, hc.1⟩
  · cases h

theorem newElement_valid {f v : Int} (h0 : 0 ≤ v) (h1 : v < f) : newElement f v = .ok ⟨f, v⟩ := by
  simp [newElement, isValid, h0, h1]

/-- constructors of the package always return an element of the stated field or panic -/
theorem elem_ok_of_bind_new {f : Int} {r : Res Int} {e : Element}
    (h : (r >>= fun s => newElement f s) = .ok e) : Valid f e := by
  rw [Res.bind_eq_ok] at h
  obtain ⟨a, -, h2⟩ := h
  exact (newElement_ok h2).2

/-- **C41** (invariant) every element obtained by any sequence of API calls starting from canonical
elements of the field is canonical; whatever the arguments, the only alternative is a panic. -/
theorem C41_canonical_reachable (f : Int) (pool : List Element) (hp : ∀ e ∈ pool, Valid f e)
    (ops : List Op) (pool' : List Element) (h : run f pool ops = .ok pool') :
    ∀ e ∈ pool', Valid f e := by
  induction ops generalizing pool with
  | nil => simp only [run, Res.ok.injEq] at h; subst h; exact hp
  | cons op ops ih =>
    rw [run, Res.bind_eq_ok] at h
    obtain ⟨p1, h1, h2⟩ := h
    refine ih p1 ?_ h2
    have app : ∀ z, Valid f z → ∀ e ∈ pool ++ [z], Valid f e := by
      intro z hz e he
      rcases List.mem_append.1 he with he | he
      · exact hp e he
      · rw [List.mem_singleton.1 he]; exact hz
    have nul : ∀ g : Res Element, (∀ z, g = .ok z → Valid f z) →
        (g >>= fun z => Res.ok (pool ++ [z])) = .ok p1 → ∀ e ∈ p1, Valid f e := by
      intro g hg hh
      rw [Res.bind_eq_ok] at hh
      obtain ⟨z, hz, hz'⟩ := hh
      cases hz'
      exact app z (hg z hz)
    have un : ∀ (g : Element → Res Element) (i : Nat),
        (∀ x z, Valid f x → g x = .ok z → Valid f z) →
        (match pool[i]? with
          | some x => g x >>= fun z => Res.ok (pool ++ [z])
          | none => .ok pool) = .ok p1 → ∀ e ∈ p1, Valid f e := by
      intro g i hg hh
      cases hx : pool[i]? with
      | none => rw [hx] at hh; cases hh; exact hp
      | some x =>
        rw [hx] at hh
        exact nul (g x) (fun z hz => hg x z (hp x (List.mem_of_getElem? hx)) hz) hh
    have bin : ∀ (g : Element → Element → Res Element) (i j : Nat),
        (∀ x y z, Valid f x → Valid f y → g x y = .ok z → Valid f z) →
        (match pool[i]?, pool[j]? with
          | some x, some y => g x y >>= fun z => Res.ok (pool ++ [z])
          | _, _ => .ok pool) = .ok p1 → ∀ e ∈ p1, Valid f e := by
      intro g i j hg hh
      cases hx : pool[i]? with
      | none => rw [hx] at hh; cases hh; exact hp
      | some x =>
        cases hy : pool[j]? with
        | none => rw [hx, hy] at hh; cases hh; exact hp
        | some y =>
          rw [hx, hy] at hh
          exact nul (g x y) (fun z hz => hg x y z (hp x (List.mem_of_getElem? hx))
            (hp y (List.mem_of_getElem? hy)) hz) hh
    have vf : ∀ x y : Element, ∀ z (k : Unit → Res Element),
        ((validateFields x y) >>= k) = .ok z → k () = .ok z := by
      intro x y z k hk
      rw [Res.bind_eq_ok] at hk
      obtain ⟨⟨⟩, -, h⟩ := hk
      exact h
    cases op with
    | new v => exact nul _ (fun z hz => (newElement_ok hz).2) h1
    | fromBytes b => exact nul _ (fun z hz => (newElement_ok hz).2) h1
    | reduced b => exact nul _ (fun z hz => elem_ok_of_bind_new hz) h1
    | zero => exact nul _ (fun z hz => (newElement_ok hz).2) h1
    | one => exact nul _ (fun z hz => (newElement_ok hz).2) h1
    | add i j =>
      refine bin Elem.add i j (fun x y z hx _ hz => ?_) h1
      have := vf x y z _ hz
      have := elem_ok_of_bind_new this
      rwa [hx.1] at this
    | sub i j =>
      refine bin Elem.sub i j (fun x y z hx _ hz => ?_) h1
      have := elem_ok_of_bind_new (vf x y z _ hz)
      rwa [hx.1] at this
    | mul i j =>
      refine bin Elem.mul i j (fun x y z hx _ hz => ?_) h1
      have := elem_ok_of_bind_new (vf x y z _ hz)
      rwa [hx.1] at this
    | neg i =>
      refine un Elem.neg i (fun x z hx hz => ?_) h1
      have := elem_ok_of_bind_new hz
      rwa [hx.1] at this
    | div i j =>
      refine bin Elem.div i j (fun x y z hx _ hz => ?_) h1
      have hz' := vf x y z _ hz
      cases hi : Big.modInverse y.value x.modulus with
      | none => rw [hi] at hz'; cases hz'
      | some k =>
        rw [hi] at hz'
        have := elem_ok_of_bind_new hz'
        rwa [hx.1] at this
    | pow i j =>
      refine bin Elem.pow i j (fun x y z hx _ hz => ?_) h1
      have hz' := vf x y z _ hz
      cases hi : Big.exp x.value y.value (some x.modulus) with
      | none => rw [hi] at hz'; cases hz'
      | some k =>
        rw [hi] at hz'
        have := (newElement_ok hz').2
        rwa [hx.1] at this
    | invert i =>
      refine un Elem.invert i (fun x z hx hz => ?_) h1
      unfold invert at hz
      cases hi : Big.modInverse x.value x.modulus with
      | none => rw [hi] at hz; cases hz
      | some k =>
        rw [hi] at hz
        have := (newElement_ok hz).2
        rwa [hx.1] at this
    | clone i =>
      refine un Elem.clone i (fun x z hx hz => ?_) h1
      have := (newElement_ok hz).2
      rwa [hx.1] at this

/-- **C41** (finding) JSON decoding bypasses the check: a non-canonical element is obtained. -/
theorem C41_json_not_canonical :
    ∃ e, unmarshalJSON 7 100 = .ok e ∧ ¬ Valid e.modulus e :=
  ⟨⟨7, 100⟩, rfl, by rintro ⟨_, _, h⟩; simp at h⟩

section Laws
variable (p : Nat) [hp : Fact p.Prime]

/-- the residue an element stands for -/
def toZ (x : Element) : ZMod p := (x.value : ZMod p)

theorem bin_ok (x y : Element) (hx : Valid p x) (hy : Valid p y) (v : Int) :
    (do validateFields x y; let s ← Big.mod v x.modulus; newElement x.modulus s : Res Element)
      = .ok ⟨p, v % p⟩ := by
  have hp0 : (0 : Int) < p := by exact_mod_cast hp.out.pos
  have h1 : x.modulus = y.modulus := by rw [hx.1, hy.1]
  have h2 : x.modulus ≠ 0 := by rw [hx.1]; omega
  simp only [validateFields, h1, if_true, Res.bind_ok, Big.mod]
  rw [← h1, if_neg h2, Res.bind_ok, hx.1]
  exact newElement_valid (Int.emod_nonneg _ hp0.ne') (Int.emod_lt_of_pos _ hp0)

theorem toZ_inj {x y : Element} (hx : Valid p x) (hy : Valid p y) (h : toZ p x = toZ p y) : x = y := by
  have := (ZMod.intCast_eq_intCast_iff _ _ p).1 h
  rw [Int.ModEq, Int.emod_eq_of_lt hx.2.1 hx.2.2, Int.emod_eq_of_lt hy.2.1 hy.2.2] at this
  cases x; cases y
  simp only [Valid] at hx hy
  simp_all

theorem toZ_mod (v : Int) : toZ p ⟨p, v % p⟩ = (v : ZMod p) := by
  simp [toZ]

theorem valid_mod (v : Int) : Valid p (⟨p, v % p⟩ : Element) := by
  have hp0 : (0 : Int) < p := by exact_mod_cast hp.out.pos
  exact ⟨rfl, Int.emod_nonneg _ hp0.ne', Int.emod_lt_of_pos _ hp0⟩

theorem coprime_of_ne {y : Element} (h0 : toZ p y ≠ 0) : Int.gcd y.value p = 1 := by
  have hnd : ¬ (p : Int) ∣ y.value := by
    intro hd; exact h0 ((ZMod.intCast_zmod_eq_zero_iff_dvd _ _).2 hd)
  rw [Int.gcd_comm]
  have h1 : ¬ p ∣ y.value.natAbs := by
    intro hd; exact hnd (Int.natCast_dvd.2 hd)
  have := (Nat.Prime.coprime_iff_not_dvd hp.out).2 h1
  simpa [Int.gcd, Nat.Coprime] using this

theorem modInverse_cast {y : Element} (h0 : toZ p y ≠ 0) :
    ∃ i, Big.modInverse y.value p = some i ∧ 0 ≤ i ∧ i < p ∧ (i : ZMod p) = (toZ p y)⁻¹ := by
  have hp0 : (0 : Int) < p := by exact_mod_cast hp.out.pos
  cases h : Big.modInverse y.value p with
  | none => exact absurd (coprime_of_ne p h0) (Big.modInverse_eq_none.1 h)
  | some i =>
    obtain ⟨h1, h2, h3⟩ := Big.modInverse_spec hp0.ne' h
    rw [abs_of_pos hp0] at h2
    refine ⟨i, rfl, h1, h2, ?_⟩
    have := (ZMod.intCast_eq_intCast_iff _ _ p).2 h3
    push_cast at this
    exact (eq_inv_of_mul_eq_one_right this)

/-- **C41** (field laws) on canonical elements of a prime field the operations are those of the field
`ZMod p`, `IsEqual` is equality, and the identification is injective – so every field law holds. -/
theorem C41_field_ops (x y : Element) (hx : Valid p x) (hy : Valid p y) :
    (∃ z, add x y = .ok z ∧ Valid p z ∧ toZ p z = toZ p x + toZ p y) ∧
    (∃ z, sub x y = .ok z ∧ Valid p z ∧ toZ p z = toZ p x - toZ p y) ∧
    (∃ z, mul x y = .ok z ∧ Valid p z ∧ toZ p z = toZ p x * toZ p y) ∧
    (∃ z, neg x = .ok z ∧ Valid p z ∧ toZ p z = - toZ p x) ∧
    (∃ z, pow x y = .ok z ∧ Valid p z ∧ toZ p z = toZ p x ^ y.value.toNat) ∧
    (toZ p y ≠ 0 → ∃ z, div x y = .ok z ∧ Valid p z ∧ toZ p z = toZ p x / toZ p y) ∧
    (toZ p y ≠ 0 → ∃ z, invert y = .ok z ∧ Valid p z ∧ toZ p z = (toZ p y)⁻¹) ∧
    (toZ p y = 0 → div x y = .panic ∧ invert y = .panic) ∧
    (isEqual x y = true ↔ toZ p x = toZ p y) ∧
    (toZ p x = toZ p y → x = y) ∧
    clone x = .ok x := by
  have hp0 : (0 : Int) < p := by exact_mod_cast hp.out.pos
  have hxy : x.modulus = y.modulus := by rw [hx.1, hy.1]
  refine ⟨⟨_, bin_ok p x y hx hy _, valid_mod p _, ?_⟩, ⟨_, bin_ok p x y hx hy _, valid_mod p _, ?_⟩,
    ⟨_, bin_ok p x y hx hy _, valid_mod p _, ?_⟩, ⟨⟨p, -x.value % p⟩, ?_, valid_mod p _, ?_⟩, ?_, ?_, ?_, ?_, ?_,
    toZ_inj p hx hy, ?_⟩
  · rw [toZ_mod]; simp [toZ]
  · rw [toZ_mod]; simp [toZ]
  · rw [toZ_mod]; simp [toZ]
  · have := bin_ok p x x hx hx (-x.value)
    simp only [validateFields, if_true, Res.bind_ok] at this
    exact this
  · rw [toZ_mod]; simp [toZ]
  · refine ⟨⟨p, x.value ^ y.value.toNat % p⟩, ?_, valid_mod p _, ?_⟩
    · unfold pow
      simp only [validateFields, hxy, if_true, Res.bind_ok, Big.exp]
      rw [← hxy, hx.1, if_neg hp0.ne', if_pos hy.2.1]
      exact newElement_valid (Int.emod_nonneg _ hp0.ne') (Int.emod_lt_of_pos _ hp0)
    · rw [toZ_mod]; simp [toZ]
  · intro h0
    obtain ⟨i, hi, h1, h2, h3⟩ := modInverse_cast p h0
    refine ⟨⟨p, x.value * i % p⟩, ?_, valid_mod p _, ?_⟩
    · unfold div
      rw [hx.1]
      simp only [hi]
      have := bin_ok p x y hx hy (x.value * i)
      rw [hx.1] at this
      exact this
    · rw [toZ_mod, div_eq_mul_inv]; push_cast; rw [h3]; rfl
  · intro h0
    obtain ⟨i, hi, h1, h2, h3⟩ := modInverse_cast p h0
    refine ⟨⟨p, i⟩, ?_, ⟨rfl, h1, h2⟩, h3⟩
    unfold invert
    rw [hy.1]
    simp only [hi]
    exact newElement_valid h1 h2
  · intro h0
    have hd : (p : Int) ∣ y.value := (ZMod.intCast_zmod_eq_zero_iff_dvd _ _).1 h0
    have hi : Big.modInverse y.value p = none := by
      rw [Big.modInverse_eq_none]
      intro hg
      have : p ∣ Int.gcd y.value p := Int.dvd_gcd (by exact hd) (dvd_refl _)
      rw [hg] at this
      exact hp.out.one_lt.ne' (Nat.dvd_one.1 this)
    constructor
    · unfold div; rw [hx.1]; simp only [validateFields, hxy, if_true, Res.bind_ok, hi]
    · unfold invert; rw [hy.1]; simp only [hi]
  · unfold isEqual
    rw [if_pos hxy, decide_eq_true_eq]
    constructor
    · intro h; simp [toZ, h]
    · intro h; rw [toZ_inj p hx hy h]
  · unfold clone elementFromBytes bytes Big.setBytes Big.bytes
    rw [Bytes.beToNat_natToBE]
    have : ((x.value.natAbs : Nat) : Int) = x.value := Int.natAbs_of_nonneg hx.2.1
    rw [this, hx.1, newElement_valid hx.2.1 hx.2.2]
    cases x; simp only [Valid] at hx; simp [hx.1]

/-- **C41** mixing moduli panics in every binary operation. -/
theorem C41_mixed_moduli_panic (x y : Element) (h : x.modulus ≠ y.modulus) :
    add x y = .panic ∧ sub x y = .panic ∧ mul x y = .panic ∧ div x y = .panic ∧ pow x y = .panic ∧
    isEqual x y = false := by
  simp [add, sub, mul, div, pow, isEqual, validateFields, h]

end Laws

instance : Fact (Nat.Prime 11) := ⟨by norm_num⟩
example : Valid 11 ⟨11, 7⟩ ∧ Valid 11 ⟨11, 5⟩ ∧ add ⟨11, 7⟩ ⟨11, 5⟩ = .ok ⟨11, 1⟩
    ∧ div ⟨11, 7⟩ ⟨11, 5⟩ = .ok ⟨11, 8⟩ := by
  refine ⟨⟨rfl, by decide, by decide⟩, ⟨rfl, by decide, by decide⟩, by decide, by decide +kernel⟩
example : run 11 [] [.new 7, .fromBytes [5], .add 0 1, .invert 2, .div 1 2]
    = .ok [⟨11, 7⟩, ⟨11, 5⟩, ⟨11, 1⟩, ⟨11, 1⟩, ⟨11, 5⟩] := by decide +kernel
example : run 11 [] [.new 17] = .panic := by decide

end Verif.Elem
