import Verif.OT.Kos
import Verif.OT.BinaryFieldProps
import Verif.OT.SimplestProps

/-! # Property C25: correlated OT extension -/

set_option linter.unusedSectionVars false

namespace Verif.OT.Kos
open Verif Verif.OT Verif.OT.BinaryField Polynomial

/-! ### specification -/

/-- bit `t` of a byte vector, little-endian across and within bytes -/
def vbit (v : Nat → UInt8) (t : Nat) : Bool := (v (t / 8)).toNat.testBit (t % 8)

/-- the 32 bytes whose bit `i` is `b i` -/
def ofBits (b : Nat → Bool) : Digest :=
  fun k => UInt8.ofNat (∑ r ∈ Finset.range 8, if b (8 * k.val + r) then 2 ^ r else 0)

theorem lPrime_eq : lPrime = 1008 := by decide
theorem L_eq : L = 672 := by decide
theorem Kappa_eq : Kappa = 256 := rfl
theorem block_eq : COtBlockSizeBytes = 84 := by decide

/-! ### bits -/

theorem ext_bits {A B : Digest} (h : ∀ i < 256, bitD A i = bitD B i) : A = B := by
  apply polyOf_injective
  unfold polyOf
  refine Finset.sum_congr rfl fun n hn => ?_
  rw [h n (Finset.mem_range.1 hn)]

theorem bitD_xor (U V : Digest) (n : Nat) (h : n < 256) :
    bitD (xorBytes U V) n = (bitD U n ^^ bitD V n) := by
  unfold bitD at' xorBytes
  have h8 : n / 8 < 32 := by omega
  rw [dif_pos h8, dif_pos h8, dif_pos h8, UInt8.toNat_xor, Nat.testBit_xor]

theorem bit01 (b : UInt8) (i : Nat) (hi : i < 8) :
    ((b >>> UInt8.ofNat i) &&& 1) = if b.toNat.testBit i then 1 else 0 := by
  have := byte_bit b i
  have h7 : i &&& 7 = i % 8 := Nat.and_two_pow_sub_one_eq_mod i 3
  rw [h7, Nat.mod_eq_of_lt hi] at this
  exact this

theorem bitAt_eq (v : Nat → UInt8) (j : Nat) : bitAt v j = if vbit v j then 1 else 0 :=
  bit01 _ _ (Nat.mod_lt _ (by norm_num))

theorem shl_bit (c : Bool) (r t : Nat) (hr : r < 8) (ht : t < 8) :
    ((if c then (1 : UInt8) else 0) <<< UInt8.ofNat r).toNat.testBit t = (c && decide (t = r)) := by
  have : ∀ (c : Bool) (r t : Fin 8), ((if c then (1 : UInt8) else 0) <<< UInt8.ofNat r.val).toNat.testBit t.val
      = (c && decide (t.val = r.val)) := by decide +kernel
  exact this c ⟨r, hr⟩ ⟨t, ht⟩

theorem transposeCell_bit (M : Mat) (j rb t : Nat) (ht : t < 8) :
    (transposeCell M j rb).toNat.testBit t = (M (8 * rb + t) (j / 8)).toNat.testBit (j % 8) := by
  have key : ∀ m, m ≤ 8 → ((List.range m).foldl (fun acc r => acc |||
      ((((M (8 * rb + r) (j / 8)) >>> UInt8.ofNat (j % 8)) &&& 1) <<< UInt8.ofNat r)) (0 : UInt8)).toNat.testBit t
      = (decide (t < m) && (M (8 * rb + t) (j / 8)).toNat.testBit (j % 8)) := by
    intro m
    induction m with
    | zero => intro _; simp
    | succ m ih =>
      intro hm
      rw [List.range_succ, List.foldl_append]
      simp only [List.foldl_cons, List.foldl_nil]
      rw [UInt8.toNat_or, Nat.testBit_or, ih (by omega), bit01 _ _ (Nat.mod_lt _ (by norm_num)),
        shl_bit _ _ _ (by omega) ht]
      rcases lt_trichotomy t m with h | h | h
      · simp [h, show t < m + 1 by omega, show ¬ t = m by omega]
      · subst h; simp
      · simp [show ¬ t < m by omega, show ¬ t < m + 1 by omega, show ¬ t = m by omega]
  have := key 8 le_rfl
  rw [show decide (t < 8) = true from by simpa using ht, Bool.true_and] at this
  exact this

/-- transposition: bit `i` of row `j` of the output is bit `j` of row `i` of the input -/
theorem transpose_bit (M : Mat) (i j : Nat) (hi : i < 256) :
    bitD (transpose M j) i = vbit (M i) j := by
  unfold bitD at' transpose
  rw [dif_pos (by omega : i / 8 < 32)]
  rw [transposeCell_bit M j (i / 8) (i % 8) (Nat.mod_lt _ (by norm_num))]
  rw [show 8 * (i / 8) + i % 8 = i by omega]
  rfl

theorem ofBits_bit (b : Nat → Bool) (i : Nat) (hi : i < 256) : bitD (ofBits b) i = b i := by
  have : ∀ (x : Fin 8 → Bool) (t : Fin 8),
      (UInt8.ofNat (∑ r : Fin 8, if x r then 2 ^ r.val else 0)).toNat.testBit t.val = x t := by
    decide +kernel
  have h := this (fun r => b (8 * (i / 8) + r.val)) ⟨i % 8, Nat.mod_lt _ (by norm_num)⟩
  unfold bitD at' ofBits
  rw [dif_pos (by omega : i / 8 < 32), Finset.sum_range]
  rw [h]
  simp only
  rw [show 8 * (i / 8) + i % 8 = i by omega]

theorem bitmask_and (b : Bool) (x : UInt8) : bitmask (if b then 1 else 0) &&& x = if b then x else 0 := by
  cases b
  · simp [bitmask]
  · have : bitmask 1 = 255 := by decide
    simp only [if_true, this]
    apply UInt8.toNat_inj.1
    rw [UInt8.toNat_and]
    have : (255 : UInt8).toNat = 2 ^ 8 - 1 := rfl
    rw [this, Nat.and_comm, Nat.and_two_pow_sub_one_eq_mod]
    exact Nat.mod_eq_of_lt x.toNat_lt

theorem polyOf_zero : polyOf zeroD = 0 := by
  ext n
  rw [polyOf_coeff]
  have : bitD zeroD n = false := by
    unfold bitD at' zeroD
    split <;> simp
  simp [this]

attribute [local irreducible] polyOf f binaryFieldMul

theorem eq_iff_dvd (A B : Digest) : A = B ↔ f ∣ polyOf A - polyOf B := by
  constructor
  · rintro rfl; simp
  · intro h
    apply polyOf_injective
    have := Polynomial.modByMonic_eq_of_dvd_sub f_monic h
    rwa [(Polynomial.modByMonic_eq_self_iff f_monic).2 (polyOf_degree _),
      (Polynomial.modByMonic_eq_self_iff f_monic).2 (polyOf_degree _)] at this

/-! ### the two parties' matrices -/

section
variable {F : Type} [Field F]

/-- seed rows of the receiver of the extension -/
def row0 (E : Env F) (sid : Digest) (keys : List (Digest × Digest)) (i : Nat) : Nat → UInt8 :=
  E.shake sid (bytesOf (keys.getD i (zeroD, zeroD)).1)
def row1 (E : Env F) (sid : Digest) (keys : List (Digest × Digest)) (i : Nat) : Nat → UInt8 :=
  E.shake sid (bytesOf (keys.getD i (zeroD, zeroD)).2)

/-- the sender's secret vector as 32 bytes -/
def nablaOf (o : ReceiverOutput) : Digest := fun i => o.packed.getD i.val 0

theorem mapM_idx {α : Type} (l : List α) (d : α) (n : Nat) (h : l.length = n) :
    (List.range n).mapM (idx l) = .ok l := by
  have : (List.range n).map (fun i => l.getD i d) = l := by
    apply List.ext_getElem
    · simp [h]
    · intro i h1 h2
      simp [List.getD_eq_getElem?_getD, List.getElem?_eq_getElem h2]
  rw [mapM_ok (g := fun i => l.getD i d), this]
  intro i hi
  rw [List.mem_range] at hi
  rw [idx_eq_ok, List.getD_eq_getElem?_getD, List.getElem?_eq_getElem (by omega)]
  rfl

theorem nabla_bit {o : ReceiverOutput} (i : Nat) (hi : i < 256) :
    bitD (nablaOf o) i = bitOf o.packed i := by
  unfold bitD at' nablaOf bitOf
  rw [dif_pos (by omega : i / 8 < 32)]

/-- the effective choice of the extension receiver in row `i`, read off its message -/
def omega (E : Env F) (sid : Digest) (keys : List (Digest × Digest)) (U : Mat) (i : Nat) : Nat → UInt8 :=
  fun c => row0 E sid keys i c ^^^ row1 E sid keys i c ^^^ U i c

theorem zMat_eq (E : Env F) (sid : Digest) (keys : List (Digest × Digest)) (o : ReceiverOutput)
    (h : Correlated 256 keys o) (U : Mat) (i c : Nat) (hi : i < 256) :
    zMat E sid o.keys o.bits U i c =
      row0 E sid keys i c ^^^ (if bitOf o.packed i then omega E sid keys U i c else 0) := by
  obtain ⟨k0, k1, h1, h2, h3⟩ := h.rel i hi
  unfold zMat omega row0 row1
  simp only [List.getD_eq_getElem?_getD, h1, h2, h3, Option.getD_some]
  cases hb : bitOf o.packed i
  · simp only [Bool.false_eq_true, if_false, UInt8.xor_zero]
    have := bitmask_and false (U i c)
    simp only [Bool.false_eq_true, if_false] at this
    rw [show UInt8.ofNat 0 = 0 from rfl, this, UInt8.xor_zero]
  · simp only [if_true]
    have := bitmask_and true (U i c)
    simp only [if_true] at this
    rw [show UInt8.ofNat 1 = 1 from rfl, this]
    rw [← UInt8.xor_assoc, ← UInt8.xor_assoc, UInt8.xor_self, UInt8.zero_xor]

/-- `ζ_j = ψ_j ⊕ (ω^j ∧ ∇)` for every message `U` -/
theorem zeta_eq (E : Env F) (sid : Digest) (keys : List (Digest × Digest)) (o : ReceiverOutput)
    (h : Correlated 256 keys o) (U : Mat) (j : Nat) :
    transpose (zMat E sid o.keys o.bits U) j =
      xorBytes (transpose (row0 E sid keys) j)
        (ofBits fun i => bitOf o.packed i && vbit (omega E sid keys U i) j) := by
  apply ext_bits
  intro i hi
  rw [bitD_xor _ _ _ hi, transpose_bit _ _ _ hi, transpose_bit _ _ _ hi, ofBits_bit _ _ hi]
  unfold vbit
  rw [zMat_eq E sid keys o h U i _ hi, UInt8.toNat_xor, Nat.testBit_xor]
  cases bitOf o.packed i <;> simp

theorem dvd_flip (g a b : P2) (h : g ∣ a - b) : g ∣ b - a := (dvd_sub_comm).1 h

theorem dvd_alg {f a s b t v : P2} (h1 : f ∣ a - s) (h2 : f ∣ b - t) :
    f ∣ a - (v + b) ↔ f ∣ s - (v + t) := by
  have e : a - (v + b) = s - (v + t) + ((a - s) - (b - t)) := by ring
  rw [e]
  exact dvd_add_left (dvd_sub h1 h2)
theorem dvd_alg2 {f v s t : P2} (h : f ∣ v - s) : f ∣ s + t - (v + t) := by
  have e : s + t - (v + t) = -(v - s) := by ring
  rw [e]
  exact (dvd_neg).2 h
theorem dvd_sum' {g : P2} (n : ℕ) (a b : ℕ → P2) (h : ∀ j, g ∣ a j - b j) :
    g ∣ (∑ j ∈ Finset.range n, a j) - ∑ j ∈ Finset.range n, b j := by
  rw [← Finset.sum_sub_distrib]
  exact Finset.dvd_sum fun j _ => h j

/-! The next lemmas abstract from the concrete modulus, representation and multiplication. -/

theorem fold_gen (p : Digest → P2) (hx : ∀ U V, p (xorBytes U V) = p U + p V) (h0 : p zeroD = 0)
    (g : Nat → Digest) (n : Nat) :
    p ((List.range n).foldl (fun acc j => xorBytes acc (g j)) zeroD) = ∑ j ∈ Finset.range n, p (g j) := by
  induction n with
  | zero => simp [h0]
  | succ n ih =>
    rw [List.range_succ, List.foldl_append, Finset.sum_range_succ, ← ih]
    simp only [List.foldl_cons, List.foldl_nil]
    rw [hx]

theorem fold_dvd_gen (q : P2) (p : Digest → P2) (mul : Digest → Digest → Digest)
    (hx : ∀ U V, p (xorBytes U V) = p U + p V) (h0 : p zeroD = 0)
    (hm : ∀ A B, q ∣ p A * p B - p (mul A B)) (n : Nat) (z c : Nat → Digest) :
    q ∣ p ((List.range n).foldl (fun acc j => xorBytes acc (mul (z j) (c j))) zeroD) -
      ∑ j ∈ Finset.range n, p (z j) * p (c j) := by
  rw [fold_gen p hx h0 (fun j => mul (z j) (c j))]
  exact dvd_sum' n (fun j => p (mul (z j) (c j))) (fun j => p (z j) * p (c j))
    fun j => dvd_flip _ _ _ (hm (z j) (c j))

theorem check_gen (q : P2) (p : Digest → P2) (mul : Digest → Digest → Digest)
    (hx : ∀ U V, p (xorBytes U V) = p U + p V) (h0 : p zeroD = 0)
    (hm : ∀ A B, q ∣ p A * p B - p (mul A B)) (he : ∀ A B, A = B ↔ q ∣ p A - p B)
    (n : Nat) (z c : Nat → Digest) (V nab W : Digest) :
    (List.range n).foldl (fun acc j => xorBytes acc (mul (z j) (c j))) zeroD = xorBytes V (mul nab W) ↔
      q ∣ (∑ j ∈ Finset.range n, p (z j) * p (c j)) - (p V + p nab * p W) := by
  rw [he, hx]
  exact dvd_alg (fold_dvd_gen q p mul hx h0 hm n z c) (dvd_flip _ _ _ (hm nab W))

/-- the honest message satisfies the check equation -/
theorem honest_gen (q : P2) (p : Digest → P2) (n : Nat) (psi zeta c : Nat → Digest) (w : Nat → Bool)
    (hx : ∀ U V, p (xorBytes U V) = p U + p V)
    (V nab W : Digest) (hz : ∀ j, zeta j = if w j then xorBytes (psi j) nab else psi j)
    (hW : p W = ∑ j ∈ Finset.range n, if w j then p (c j) else 0)
    (hV : q ∣ p V - ∑ j ∈ Finset.range n, p (psi j) * p (c j)) :
    q ∣ (∑ j ∈ Finset.range n, p (zeta j) * p (c j)) - (p V + p nab * p W) := by
  have e : (∑ j ∈ Finset.range n, p (zeta j) * p (c j)) =
      (∑ j ∈ Finset.range n, p (psi j) * p (c j)) + p nab * p W := by
    rw [hW, Finset.mul_sum, ← Finset.sum_add_distrib]
    refine Finset.sum_congr rfl fun j _ => ?_
    rw [hz j]
    cases w j
    · simp
    · simp only [if_true, hx]; ring
  rw [e]
  exact dvd_alg2 hV

theorem check_iff (q : P2) (p : Digest → P2) (hx : ∀ U V, p (xorBytes U V) = p U + p V) (h0 : p zeroD = 0)
    (hm : ∀ A B, q ∣ p A * p B - p (binaryFieldMul A B)) (he : ∀ A B, A = B ↔ q ∣ p A - p B)
    (E : Env F) (nabla : Digest) (zeta : Nat → Digest) (U : Mat) (W V : Digest) :
    zPrime E (hashU E U) zeta = xorBytes V (binaryFieldMul nabla W) ↔
      q ∣ (∑ j ∈ Finset.range lPrime, p (zeta j) * p (chi E (hashU E U) j)) - (p V + p nabla * p W) := by
  unfold zPrime
  exact check_gen q p binaryFieldMul hx h0 hm he lPrime zeta (chi E (hashU E U)) V nabla W

theorem round2_eq (E : Env F) (keys : List (Digest × Digest)) (o : ReceiverOutput)
    (h : Correlated 256 keys o) (sid : Digest) (input : List (F × F)) (m : Round1Output) :
    round2 E o sid input m =
      (if zPrime E (hashU E m.U) (transpose (zMat E sid o.keys o.bits m.U)) ≠
          xorBytes m.VPrime (binaryFieldMul (nablaOf o) m.WPrime) then .err
      else do
        let res ← (List.range L).mapM
          (transferStep E sid (nablaOf o) (transpose (zMat E sid o.keys o.bits m.U)) input)
        Res.ok (res.map Prod.fst, res.map Prod.snd)) := by
  unfold round2
  have e1 : (List.range Kappa).mapM (idx o.keys) = .ok o.keys := mapM_idx _ zeroD _ (h.lenK.trans Kappa_eq.symm)
  have e2 : (List.range Kappa).mapM (idx o.bits) = .ok o.bits := mapM_idx _ 0 _ (h.lenB.trans Kappa_eq.symm)
  have e3 : take32 o.packed = .ok (nablaOf o) := by
    unfold take32
    have := h.lenP
    rw [if_neg (by omega)]
    rfl
  rw [e1, e2]
  simp only [Res.bind_ok]
  rw [e3, Res.bind_ok]

/-- a step of the transfer succeeds iff its four columns decode -/
def Decodable (E : Env F) (sid : Digest) (nabla : Digest) (zeta : Nat → Digest) : Prop :=
  ∀ j < 672, ∀ k < 2, column E sid j (zeta j) k ≠ none ∧ column E sid j (xorBytes (zeta j) nabla) k ≠ none

theorem transferStep_ok (E : Env F) (sid nabla : Digest) (zeta : Nat → Digest) (input : List (F × F))
    (j : Nat) (x : (F × F) × (F × F)) :
    transferStep E sid nabla zeta input j = .ok x ↔
      ∃ a0 a1 t0 t1 i, column E sid j (zeta j) 0 = some a0 ∧ column E sid j (zeta j) 1 = some a1 ∧
        column E sid j (xorBytes (zeta j) nabla) 0 = some t0 ∧
        column E sid j (xorBytes (zeta j) nabla) 1 = some t1 ∧ input[j]? = some i ∧
        x = ((a0, a1), (t0 - a0 + i.1, t1 - a1 + i.2)) := by
  unfold transferStep
  have e : ∀ {α : Type} (y : Option α) (z : α), Res.ofOption y = .ok z ↔ y = some z := by
    intro α y z; cases y <;> simp [Res.ofOption]
  simp only [Res.bind_eq_ok, e, idx_eq_ok, Res.ok.injEq]
  constructor
  · rintro ⟨a0, h0, a1, h1, t0, h2, t1, h3, i, h4, rfl⟩
    exact ⟨a0, a1, t0, t1, i, h0, h1, h2, h3, h4, rfl⟩
  · rintro ⟨a0, a1, t0, t1, i, h0, h1, h2, h3, h4, rfl⟩
    exact ⟨a0, h0, a1, h1, t0, h2, t1, h3, i, h4, rfl⟩

theorem transfer_ok_of_decodable (E : Env F) (sid nabla : Digest) (zeta : Nat → Digest)
    (input : List (F × F)) (hin : input.length = 672) (hd : Decodable E sid nabla zeta) :
    ∃ r, (List.range L).mapM (transferStep E sid nabla zeta input) = .ok r := by
  rw [mapM_range_ok_iff]
  intro j hj
  rw [L_eq] at hj
  obtain ⟨a0, h0⟩ := Option.ne_none_iff_exists'.1 (hd j hj 0 (by norm_num)).1
  obtain ⟨a1, h1⟩ := Option.ne_none_iff_exists'.1 (hd j hj 1 (by norm_num)).1
  obtain ⟨t0, h2⟩ := Option.ne_none_iff_exists'.1 (hd j hj 0 (by norm_num)).2
  obtain ⟨t1, h3⟩ := Option.ne_none_iff_exists'.1 (hd j hj 1 (by norm_num)).2
  exact ⟨_, (transferStep_ok ..).2 ⟨a0, a1, t0, t1, input[j], h0, h1, h2, h3,
    List.getElem?_eq_getElem (by omega), rfl⟩⟩

theorem check_iff_abs (q : P2) (p : Digest → P2) (hx : ∀ U V, p (xorBytes U V) = p U + p V) (h0 : p zeroD = 0)
    (hm : ∀ A B, q ∣ p A * p B - p (binaryFieldMul A B)) (he : ∀ A B, A = B ↔ q ∣ p A - p B)
    (E : Env F) (keys : List (Digest × Digest)) (o : ReceiverOutput)
    (h : Correlated 256 keys o) (sid : Digest) (input : List (F × F)) (hin : input.length = 672)
    (m : Round1Output) :
    let zeta : Nat → Digest := fun j => xorBytes (transpose (row0 E sid keys) j)
        (ofBits fun i => bitOf o.packed i && vbit (omega E sid keys m.U i) j)
    let eqn := q ∣ (∑ j ∈ Finset.range 1008, p (zeta j) * p (chi E (hashU E m.U) j)) -
      (p m.VPrime + p (nablaOf o) * p m.WPrime)
    (¬ eqn → round2 E o sid input m = .err) ∧
    (eqn → Decodable E sid (nablaOf o) zeta → ∃ x, round2 E o sid input m = .ok x) := by
  intro zeta eqn
  have hz : transpose (zMat E sid o.keys o.bits m.U) = zeta := by
    funext j; exact zeta_eq E sid keys o h m.U j
  have hc := check_iff q p hx h0 hm he E (nablaOf o) zeta m.U m.WPrime m.VPrime
  rw [lPrime_eq] at hc
  rw [round2_eq E keys o h, hz]
  constructor
  · intro hn
    rw [if_pos]
    intro he
    exact hn (hc.1 he)
  · intro hy hd
    rw [if_neg (not_not.2 (hc.2 hy))]
    obtain ⟨r, hr⟩ := transfer_ok_of_decodable E sid (nablaOf o) zeta input hin hd
    exact ⟨_, by rw [hr]; rfl⟩

/-- **C25** The sender's consistency check, for *every* message `(U, W', V')`, honest or not.  Let
`ω_i = v_i^0 ⊕ v_i^1 ⊕ U_i` be the choice vector the message encodes in row `i`.  The sender goes on
iff `Σ_j (ψ_j + ∇∧ω^j)·χ_j = V' + ∇·W'` in `GF(2)[X]/(f)`, where `ω^j` is column `j`; when the equation
fails it returns an error, and when it holds it sends `Tau` unless the XOF output of some column is not a
scalar. -/
theorem C25_check_iff (E : Env F) (keys : List (Digest × Digest)) (o : ReceiverOutput)
    (h : Correlated 256 keys o) (sid : Digest) (input : List (F × F)) (hin : input.length = 672)
    (m : Round1Output) :
    let zeta : Nat → Digest := fun j => xorBytes (transpose (row0 E sid keys) j)
        (ofBits fun i => bitOf o.packed i && vbit (omega E sid keys m.U i) j)
    let eqn := f ∣ (∑ j ∈ Finset.range 1008, polyOf (zeta j) * polyOf (chi E (hashU E m.U) j)) -
      (polyOf m.VPrime + polyOf (nablaOf o) * polyOf m.WPrime)
    (¬ eqn → round2 E o sid input m = .err) ∧
    (eqn → Decodable E sid (nablaOf o) zeta → ∃ x, round2 E o sid input m = .ok x) :=
  check_iff_abs f polyOf polyOf_xor polyOf_zero mul_dvd eq_iff_dvd E keys o h sid input hin m

/-- the extended choice vector -/
def extOf (choice rnd : Nat → UInt8) : Nat → UInt8 :=
  fun j => if j < COtBlockSizeBytes then choice j else rnd (j - COtBlockSizeBytes)

/-- the honest first message -/
def honestU (E : Env F) (sid : Digest) (keys : List (Digest × Digest)) (ext : Nat → UInt8) : Mat :=
  fun i j => row0 E sid keys i j ^^^ row1 E sid keys i j ^^^ ext j

theorem round1_eq (q : P2) (p : Digest → P2) (hx : ∀ U V, p (xorBytes U V) = p U + p V) (h0 : p zeroD = 0)
    (hm : ∀ A B, q ∣ p A * p B - p (binaryFieldMul A B)) (_he : ∀ A B, A = B ↔ q ∣ p A - p B)
    (E : Env F) (keys : List (Digest × Digest)) (hk : keys.length = 256) (sid : Digest)
    (choice rnd : Nat → UInt8) :
    ∃ W V, round1 E keys sid choice rnd = .ok
        ({ ext := extOf choice rnd, psi := transpose (row0 E sid keys), sid := sid },
         { U := honestU E sid keys (extOf choice rnd), WPrime := W, VPrime := V }) ∧
      p W = (∑ j ∈ Finset.range lPrime,
        if vbit (extOf choice rnd) j then p (chi E (hashU E (honestU E sid keys (extOf choice rnd))) j) else 0) ∧
      q ∣ p V - ∑ j ∈ Finset.range lPrime,
        p (transpose (row0 E sid keys) j) * p (chi E (hashU E (honestU E sid keys (extOf choice rnd))) j) := by
  have e1 : (List.range Kappa).mapM (idx keys) = .ok keys :=
    mapM_idx _ (zeroD, zeroD) _ (hk.trans Kappa_eq.symm)
  have hV := fold_dvd_gen q p binaryFieldMul hx h0 hm lPrime
    (transpose (row0 E sid keys)) (chi E (hashU E (honestU E sid keys (extOf choice rnd))))
  have hW := fold_gen p hx h0
    (fun j k => bitmask (bitAt (extOf choice rnd) j) &&& chi E (hashU E (honestU E sid keys (extOf choice rnd))) j k) lPrime
  refine ⟨(List.range lPrime).foldl (fun acc j => xorBytes acc
      (fun k => bitmask (bitAt (extOf choice rnd) j) &&& chi E (hashU E (honestU E sid keys (extOf choice rnd))) j k)) zeroD,
    (List.range lPrime).foldl (fun acc j => xorBytes acc
      (binaryFieldMul (transpose (row0 E sid keys) j) (chi E (hashU E (honestU E sid keys (extOf choice rnd))) j))) zeroD, ?_, ?_, ?_⟩
  · unfold round1
    rw [e1, Res.bind_ok]
    rfl
  rotate_left
  · exact hV
  · rw [hW]
    refine Finset.sum_congr rfl fun j _ => ?_
    rw [bitAt_eq]
    have : (fun k => bitmask (if vbit (extOf choice rnd) j then 1 else 0) &&& chi E (hashU E (honestU E sid keys (extOf choice rnd))) j k) =
        if vbit (extOf choice rnd) j then chi E (hashU E (honestU E sid keys (extOf choice rnd))) j else zeroD := by
      funext k
      rw [bitmask_and]
      cases vbit (extOf choice rnd) j <;> rfl
    rw [this]
    cases vbit (extOf choice rnd) j
    · simp [h0]
    · rfl

theorem honest_zeta (E : Env F) (keys : List (Digest × Digest)) (o : ReceiverOutput)
    (h : Correlated 256 keys o) (sid : Digest) (ext : Nat → UInt8) (j : Nat) :
    transpose (zMat E sid o.keys o.bits
      (fun i j => row0 E sid keys i j ^^^ row1 E sid keys i j ^^^ ext j)) j =
      if vbit ext j then xorBytes (transpose (row0 E sid keys) j) (nablaOf o)
      else transpose (row0 E sid keys) j := by
  rw [zeta_eq E sid keys o h]
  have ho : ∀ i, omega E sid keys (fun i j => row0 E sid keys i j ^^^ row1 E sid keys i j ^^^ ext j) i = ext := by
    intro i
    funext c
    unfold omega
    rw [← UInt8.xor_assoc, UInt8.xor_self, UInt8.zero_xor]
  simp only [ho]
  apply ext_bits
  intro i hi
  rw [bitD_xor _ _ _ hi, ofBits_bit _ _ hi]
  cases hb : vbit ext j
  · simp
  · simp only [if_true]
    rw [bitD_xor _ _ _ hi, nabla_bit _ hi, Bool.and_true]

theorem outShare_eq (E : Env F) (b : Bool) (x tau : F) :
    outShare E (if b then (1 : UInt8) else 0).toNat x tau = .ok (-x + if b then tau else 0) := by
  unfold outShare ctSel
  cases b
  · simp [E.sc.rt, Res.ofOption]
  · simp [E.sc.rt, Res.ofOption]

theorem ofOption_ok {α : Type} (y : Option α) (z : α) : Res.ofOption y = .ok z ↔ y = some z := by
  cases y <;> simp [Res.ofOption]

theorem round3Step_ok (E : Env F) (r : Receiver) (tau : List (F × F)) (j : Nat) (y : F × F) :
    round3Step E r tau j = .ok y ↔ ∃ t x0 x1, tau[j]? = some t ∧ column E r.sid j (r.psi j) 0 = some x0 ∧
      column E r.sid j (r.psi j) 1 = some x1 ∧
      y = (-x0 + (if vbit r.ext j then t.1 else 0), -x1 + (if vbit r.ext j then t.2 else 0)) := by
  unfold round3Step
  simp only [bitAt_eq, outShare_eq, Res.bind_eq_ok, ofOption_ok, idx_eq_ok, Res.ok.injEq]
  constructor
  · rintro ⟨t, h0, x0, h1, _, rfl, x1, h2, _, rfl, rfl⟩
    exact ⟨t, x0, x1, h0, h1, h2, rfl⟩
  · rintro ⟨t, x0, x1, h0, h1, h2, rfl⟩
    exact ⟨t, h0, x0, h1, _, rfl, x1, h2, _, rfl, rfl⟩

theorem honest_abs (q : P2) (p : Digest → P2) (hx : ∀ U V, p (xorBytes U V) = p U + p V) (h0 : p zeroD = 0)
    (hm : ∀ A B, q ∣ p A * p B - p (binaryFieldMul A B)) (he : ∀ A B, A = B ↔ q ∣ p A - p B)
    (E : Env F) (keys : List (Digest × Digest)) (o : ReceiverOutput)
    (h : Correlated 256 keys o) (sid : Digest) (choice rnd : Nat → UInt8)
    (alpha : List (F × F)) (hin : alpha.length = 672) :
    ∃ r m, round1 E keys sid choice rnd = .ok (r, m) ∧
      (Decodable E sid (nablaOf o) r.psi →
        ∃ tA tau tB, round2 E o sid alpha m = .ok (tA, tau) ∧ round3 E r tau = .ok tB) ∧
      (∀ x, round2 E o sid alpha m = .ok x → Decodable E sid (nablaOf o) r.psi) ∧
      ∀ tA tau tB, round2 E o sid alpha m = .ok (tA, tau) → round3 E r tau = .ok tB →
        tA.length = 672 ∧ tB.length = 672 ∧
        ∀ j < 672, ∃ a t b, alpha[j]? = some a ∧ tA[j]? = some t ∧ tB[j]? = some b ∧
          t + b = if vbit choice j then a else 0 := by
  obtain ⟨W, V, hr1, hW, hV⟩ := round1_eq q p hx h0 hm he E keys h.lenS sid choice rnd
  set U : Mat := honestU E sid keys (extOf choice rnd) with hU
  set psi := transpose (row0 E sid keys) with hpsi
  have hz : ∀ j, transpose (zMat E sid o.keys o.bits U) j =
      if vbit (extOf choice rnd) j then xorBytes (psi j) (nablaOf o) else psi j :=
    fun j => honest_zeta E keys o h sid _ j
  have hchk : zPrime E (hashU E U) (transpose (zMat E sid o.keys o.bits U)) =
      xorBytes V (binaryFieldMul (nablaOf o) W) := by
    exact (check_iff q p hx h0 hm he E (nablaOf o) _ U W V).2
      (honest_gen q p lPrime psi (transpose (zMat E sid o.keys o.bits U)) (chi E (hashU E U))
      (vbit (extOf choice rnd)) hx V (nablaOf o) W hz hW hV)
  have hsteps : ∀ j < 672, vbit (extOf choice rnd) j = vbit choice j := by
    intro j hj
    unfold vbit extOf
    rw [if_pos (by rw [block_eq]; omega)]
  have hxx : ∀ j, xorBytes (xorBytes (psi j) (nablaOf o)) (nablaOf o) = psi j := by
    intro j; rw [xor_comm' _ (nablaOf o), xor_comm' (psi j), xor_cancel]
  refine ⟨_, _, hr1, ?_, ?_, ?_⟩
  · intro hd
    have hd' : Decodable E sid (nablaOf o) (transpose (zMat E sid o.keys o.bits U)) := by
      intro j hj k hk
      obtain ⟨h1, h2⟩ := hd j hj k hk
      rw [hz j]
      cases vbit (extOf choice rnd) j
      · exact ⟨h1, h2⟩
      · simp only [if_true]; rw [hxx]; exact ⟨h2, h1⟩
    obtain ⟨res, hres⟩ := transfer_ok_of_decodable E sid (nablaOf o) _ alpha hin hd'
    have hr2 : round2 E o sid alpha ⟨U, W, V⟩ = .ok (res.map Prod.fst, res.map Prod.snd) := by
      rw [round2_eq E keys o h]
      simp only
      rw [if_neg (not_not.2 hchk), hres, Res.bind_ok]
    have hlen := (mapM_range_eq_ok hres).1
    have h3 : ∃ tB, round3 E ⟨extOf choice rnd, psi, sid⟩ (res.map Prod.snd) = .ok tB := by
      unfold round3
      rw [mapM_range_ok_iff]
      intro j hj
      obtain ⟨x0, h0⟩ := Option.ne_none_iff_exists'.1 (hd j (L_eq ▸ hj) 0 (by norm_num)).1
      obtain ⟨x1, h1⟩ := Option.ne_none_iff_exists'.1 (hd j (L_eq ▸ hj) 1 (by norm_num)).1
      exact ⟨_, (round3Step_ok ..).2 ⟨(res.map Prod.snd)[j]'(by simpa [hlen] using hj), x0, x1,
        List.getElem?_eq_getElem _, h0, h1, rfl⟩⟩
    obtain ⟨tB, h3⟩ := h3
    exact ⟨_, _, tB, hr2, h3⟩
  · intro x h2 j hj
    rw [round2_eq E keys o h] at h2
    simp only at h2
    rw [if_neg (not_not.2 hchk)] at h2
    obtain ⟨res, hres, h2⟩ := Res.bind_eq_ok.1 h2
    obtain ⟨hl, hstep⟩ := mapM_range_eq_ok hres
    obtain ⟨x, hx1, hx2⟩ := hstep j (by rw [L_eq]; exact hj)
    obtain ⟨a0, a1, t0, t1, i, c0, c1, c2, c3, ci, rfl⟩ := (transferStep_ok ..).1 hx2
    rw [hz j] at c0 c1 c2 c3
    intro k hk
    have hk' : k = 0 ∨ k = 1 := by omega
    show column E sid j (psi j) k ≠ none ∧ column E sid j (xorBytes (psi j) (nablaOf o)) k ≠ none
    cases hb : vbit (extOf choice rnd) j
    · rw [hb] at c0 c1 c2 c3
      simp only [Bool.false_eq_true, if_false] at c0 c1 c2 c3
      rcases hk' with rfl | rfl
      · rw [c0, c2]; simp
      · rw [c1, c3]; simp
    · rw [hb] at c0 c1 c2 c3
      simp only [if_true] at c0 c1 c2 c3
      rw [hxx] at c2 c3
      rcases hk' with rfl | rfl
      · rw [c0, c2]; simp
      · rw [c1, c3]; simp
  · intro tA tau tB h2 h3
    rw [round2_eq E keys o h] at h2
    simp only at h2
    rw [if_neg (not_not.2 hchk)] at h2
    obtain ⟨res, hres, h2⟩ := Res.bind_eq_ok.1 h2
    cases h2
    obtain ⟨hl, hstep⟩ := mapM_range_eq_ok hres
    obtain ⟨hl3, hstep3⟩ := mapM_range_eq_ok h3
    rw [L_eq] at hl hl3
    refine ⟨by simpa using hl, hl3, fun j hj => ?_⟩
    obtain ⟨x, hx1, hx2⟩ := hstep j (by rw [L_eq]; exact hj)
    obtain ⟨y, hy1, hy2⟩ := hstep3 j (by rw [L_eq]; exact hj)
    obtain ⟨a0, a1, t0, t1, i, c0, c1, c2, c3, ci, rfl⟩ := (transferStep_ok ..).1 hx2
    obtain ⟨t, x0, x1, ht, d0, d1, rfl⟩ := (round3Step_ok ..).1 hy2
    rw [List.getElem?_map, hx1] at ht
    cases ht
    refine ⟨i, (a0, a1), _, ci, by rw [List.getElem?_map, hx1]; rfl, hy1, ?_⟩
    rw [hz j] at c0 c1 c2 c3
    simp only at d0 d1 ⊢
    rw [hsteps j hj] at c0 c1 c2 c3 ⊢
    cases hb : vbit choice j
    · rw [hb] at c0 c1
      simp only [Bool.false_eq_true, if_false] at c0 c1 ⊢
      rw [c0] at d0; rw [c1] at d1
      cases d0; cases d1
      ext <;> simp
    · rw [hb] at c2 c3
      simp only [if_true] at c2 c3 ⊢
      rw [hxx, d0] at c2; rw [hxx, d1] at c3
      cases c2; cases c3
      ext <;> simp <;> ring

/-- **C25** Honest run, for all correlated seeds, session ids, packed choices, extension bytes, hash and
XOF functions, and all inputs `α` (672 pairs of scalars).  Round 1 succeeds.  The sender's consistency
check never rejects it: round 2 succeeds as soon as the XOF columns decode to scalars, and so does
round 3; conversely if round 2 succeeds they do decode (so round 3 succeeds too).  Whenever rounds 2 and 3 succeed, for every `j` the two output shares add up to the sender's
input if choice bit `j` is set and to zero otherwise. -/
theorem C25_honest (E : Env F) (keys : List (Digest × Digest)) (o : ReceiverOutput)
    (h : Correlated 256 keys o) (sid : Digest) (choice rnd : Nat → UInt8)
    (alpha : List (F × F)) (hin : alpha.length = 672) :
    ∃ r m, round1 E keys sid choice rnd = .ok (r, m) ∧
      (Decodable E sid (nablaOf o) r.psi →
        ∃ tA tau tB, round2 E o sid alpha m = .ok (tA, tau) ∧ round3 E r tau = .ok tB) ∧
      (∀ x, round2 E o sid alpha m = .ok x → Decodable E sid (nablaOf o) r.psi) ∧
      ∀ tA tau tB, round2 E o sid alpha m = .ok (tA, tau) → round3 E r tau = .ok tB →
        tA.length = 672 ∧ tB.length = 672 ∧
        ∀ j < 672, ∃ a t b, alpha[j]? = some a ∧ tA[j]? = some t ∧ tB[j]? = some b ∧
          t + b = if vbit choice j then a else 0 :=
  honest_abs f polyOf polyOf_xor polyOf_zero mul_dvd eq_iff_dvd E keys o h sid choice rnd alpha hin

/-- **C25** For given `U` and `W'` the sender accepts at most one `V'`: every other value is refused with
an error (so the error branch of the check is reachable from every honest message). -/
theorem C25_tampered_check_value (E : Env F) (keys : List (Digest × Digest)) (o : ReceiverOutput)
    (h : Correlated 256 keys o) (sid : Digest) (input : List (F × F)) (U : Mat) (W V V' : Digest)
    (x : List (F × F) × List (F × F)) (hok : round2 E o sid input ⟨U, W, V⟩ = .ok x) (hne : V' ≠ V) :
    round2 E o sid input ⟨U, W, V'⟩ = .err := by
  rw [round2_eq E keys o h] at hok ⊢
  simp only at hok ⊢
  generalize zPrime E (hashU E U) (transpose (zMat E sid o.keys o.bits U)) = z at hok ⊢
  generalize binaryFieldMul (nablaOf o) W = B at hok ⊢
  by_cases hc : z = xorBytes V B
  · have h2 : z ≠ xorBytes V' B := by
      rw [hc]
      intro he
      apply hne
      rw [xor_comm' V, xor_comm' V'] at he
      rw [← xor_cancel B V', ← he, xor_cancel]
    rw [if_pos h2]
  · rw [if_pos hc] at hok; cases hok

theorem flatMap_range_inj (n m : Nat) (U U' : Mat)
    (h : ((List.range n).flatMap fun i => (List.range m).map (U i)) =
      (List.range n).flatMap fun i => (List.range m).map (U' i)) : ∀ i < n, ∀ c < m, U i c = U' i c := by
  induction n with
  | zero => intro i hi; omega
  | succ n ih =>
    rw [List.range_succ, List.flatMap_append, List.flatMap_append] at h
    have hl : ((List.range n).flatMap fun i => (List.range m).map (U i)).length =
        ((List.range n).flatMap fun i => (List.range m).map (U' i)).length := by
      simp [List.length_flatMap]
    obtain ⟨h1, h2⟩ := List.append_inj h hl
    intro i hi c hc
    by_cases hin : i < n
    · exact ih h1 i hin c hc
    · have : i = n := by omega
      subst this
      simp only [List.flatMap_cons, List.flatMap_nil, List.append_nil] at h2
      exact List.map_inj_left.1 h2 c (List.mem_range.2 hc)

/-- **C25** The check challenges are bound to the whole first message: what is hashed for the digest is an
encoding of `U` that determines all 256 rows and 126 bytes per row, and what is hashed for challenge
`χ_j` determines the column number and the digest (so equal challenges mean equal data or a collision
of the hash on these two inputs). -/
theorem C25_challenge_binds :
    ∃ (enc : Mat → List UInt8) (enc2 : Nat → Digest → List UInt8),
      (∀ (E : Env F) U, hashU E U = E.H (enc U)) ∧ (∀ (E : Env F) d j, chi E d j = E.H (enc2 j d)) ∧
      (∀ U U' : Mat, enc U = enc U' → ∀ i < 256, ∀ c < 126, U i c = U' i c) ∧
      (∀ d d' j j', j < 1008 → j' < 1008 → enc2 j d = enc2 j' d' → j = j' ∧ d = d') := by
  refine ⟨fun U => (List.range Kappa).flatMap fun i => (List.range extBytes).map (U i),
    fun j d => be16 j ++ bytesOf d, fun _ _ => rfl, fun _ _ _ => rfl, ?_, ?_⟩
  · intro U U' h
    exact flatMap_range_inj Kappa extBytes U U' h
  · intro d d' j j' hj hj' h
    have h1 := (List.append_inj h (by simp [be16])).1
    have h2 := (List.append_inj h (by simp [be16])).2
    simp only [be16, List.cons.injEq, and_true] at h1
    refine ⟨?_, List.ofFn_injective h2⟩
    have a1 := congrArg UInt8.toNat h1.1
    have a2 := congrArg UInt8.toNat h1.2
    rw [UInt8.toNat_ofNat', UInt8.toNat_ofNat'] at a1 a2
    omega

end

/-! ### non-vacuity -/

local instance fact257 : Fact (Nat.Prime 257) := ⟨by norm_num⟩

/-- a toy environment whose columns always decode -/
def toy : Env (ZMod 257) where
  sc := Verif.Sharing.beCodec 257 32 (by norm_num)
  H l := fun i => UInt8.ofNat (l.length + 7 * i.val)
  shake sid l i := if i % 32 = 31 then sid 0 + l.foldl (fun a x => a * 3 + x) 1 + UInt8.ofNat i else 0

def toyKeys : List (Digest × Digest) :=
  (List.range 256).map fun i => ((fun _ => UInt8.ofNat i), (fun _ => UInt8.ofNat (3 * i + 1)))
def toyPacked : List UInt8 := List.replicate 32 0xA6
def toyOut : ReceiverOutput where
  packed := toyPacked
  bits := (List.range 256).map fun i => if bitOf toyPacked i then 1 else 0
  keys := (List.range 256).map fun i =>
    if bitOf toyPacked i then (fun _ => UInt8.ofNat (3 * i + 1)) else (fun _ => UInt8.ofNat i)

theorem toy_correlated : Correlated 256 toyKeys toyOut where
  lenS := by simp [toyKeys]
  lenK := by simp [toyOut]
  lenB := by simp [toyOut]
  lenP := by simp [toyOut, toyPacked]
  rel i hi := ⟨fun _ => UInt8.ofNat i, fun _ => UInt8.ofNat (3 * i + 1),
    by simp [toyKeys, hi], by simp [toyOut, hi], by simp [toyOut, hi]⟩

theorem toy_decodable (sid nabla : Digest) (zeta : Nat → Digest) : Decodable toy sid nabla zeta := by
  have key : ∀ j x k, column toy sid j x k ≠ none := by
    intro j x k
    unfold column
    have this : ∀ b : UInt8, (Verif.Sharing.beCodec 257 32 (by norm_num)).setBytes
        ((List.range 32).map fun t => if t = 31 then b else 0) ≠ (none : Option (ZMod 257)) := by
      have h : ∀ n : Fin 256, (Verif.Sharing.beCodec 257 32 (by norm_num)).setBytes
        ((List.range 32).map fun t => if t = 31 then UInt8.ofNat n.val else 0) ≠ (none : Option (ZMod 257)) := by
        decide +kernel
      intro b
      have := h ⟨b.toNat, b.toNat_lt⟩
      simpa using this
    have e : ((List.range 32).map fun t => toy.shake sid (be16 j ++ bytesOf x) (k * 32 + t)) =
        (List.range 32).map fun t => if t = 31 then
          (sid 0 + (be16 j ++ bytesOf x).foldl (fun a x => a * 3 + x) 1 + UInt8.ofNat (k * 32 + 31)) else 0 := by
      apply List.map_congr_left
      intro t ht
      rw [List.mem_range] at ht
      show (if (k * 32 + t) % 32 = 31 then _ else _) = _
      by_cases h31 : t = 31
      · subst h31
        rw [if_pos (by omega), if_pos rfl]
      · rw [if_neg (by omega), if_neg h31]
    rw [e]
    exact this _
  exact fun j _ k _ => ⟨key _ _ _, key _ _ _⟩

end Verif.OT.Kos
