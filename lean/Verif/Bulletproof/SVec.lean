import Verif.Bulletproof.Lemmas

/-! The two computations of the verification vector `s` (ipp_verifier.go `gets`, `getsNew`) agree with its
definition. -/

set_option linter.unusedSectionVars false

namespace Verif.Bulletproof

open Verif
open Verif.OT (Ev Transcript idx)

variable {F G : Type} [Field F] [DecidableEq F] [AddCommGroup G] [Module F G] [DecidableEq G]

/-- entry `i` of the vector `s` -/
def sAt : List F → Nat → F
  | [], _ => 1
  | x :: xs, i => (if i >>> xs.length &&& 1 = 1 then x else x⁻¹) * sAt xs i

theorem bit_eq (i j : Nat) : i >>> j &&& 1 = i / 2 ^ j % 2 := by
  rw [Nat.and_one_is_mod, Nat.shiftRight_eq_div_pow]

theorem bit_low {i j m : Nat} (h : j < m) : (i + 2 ^ m) / 2 ^ j % 2 = i / 2 ^ j % 2 := by
  obtain ⟨d, rfl⟩ : ∃ d, m = j + 1 + d := ⟨m - (j + 1), by omega⟩
  have : i + 2 ^ (j + 1 + d) = i + 2 ^ j * (2 * 2 ^ d) := by rw [pow_add, pow_succ]; ring
  rw [this, Nat.add_mul_div_left _ _ (by positivity)]
  omega

theorem sAt_low (xs : List F) {i m : Nat} (h : xs.length ≤ m) : sAt xs (i + 2 ^ m) = sAt xs i := by
  induction xs with
  | nil => rfl
  | cons x xs ih =>
    simp only [List.length_cons] at h
    simp only [sAt, bit_eq, bit_low (show xs.length < m by omega), ih (by omega)]

theorem sVec_eq (xs : List F) : sVec xs = (List.range (2 ^ xs.length)).map (sAt xs) := by
  induction xs with
  | nil => simp [sVec, sAt]
  | cons x xs ih =>
    have hr : List.range (2 ^ (xs.length + 1)) =
        List.range (2 ^ xs.length) ++ (List.range (2 ^ xs.length)).map (2 ^ xs.length + ·) := by
      rw [pow_succ, Nat.mul_two, List.range_add]
    rw [sVec, List.length_cons, hr, List.map_append, ih]
    congr 1
    · rw [List.map_map]
      apply List.map_congr_left
      intro i hi
      have hi := List.mem_range.1 hi
      simp only [sAt, bit_eq, Nat.div_eq_of_lt hi, Function.comp]
      simp
    · rw [List.map_map, List.map_map]
      apply List.map_congr_left
      intro i hi
      have hi := List.mem_range.1 hi
      have e : (2 ^ xs.length + i) / 2 ^ xs.length = 1 := by
        rw [Nat.add_div_left _ (by positivity), Nat.div_eq_of_lt hi]
      simp only [sAt, bit_eq, Function.comp, e]
      rw [Nat.add_comm, sAt_low xs le_rfl]
      simp

theorem getsAt_eq (C : Curve F G) (i : Nat) {xs : List F} (h0 : (0 : F) ∉ xs) (si : F) :
    getsAt C i xs si = .ok (si * sAt xs i) := by
  induction xs generalizing si with
  | nil => simp [getsAt, sAt]
  | cons x xs ih =>
    have hx : x ≠ 0 := fun e => h0 (by simp [e])
    have h0' : (0 : F) ∉ xs := fun e => h0 (by simp [e])
    unfold getsAt sAt
    split
    · rw [ih h0']; congr 1; ring
    · rw [invert_ok C hx, Res.bind_ok, ih h0']; congr 1; ring

theorem mapM_ok_of {α β : Type} {f : α → Res β} {g : α → β} {l : List α} (h : ∀ a ∈ l, f a = .ok (g a)) :
    l.mapM f = .ok (l.map g) := by
  induction l with
  | nil => rfl
  | cons a l ih =>
    rw [List.mapM_cons, h a (by simp), Res.bind_ok, ih (fun b hb => h b (by simp [hb])), Res.bind_ok]
    rfl

theorem gets_eq (C : Curve F G) {xs : List F} (h0 : (0 : F) ∉ xs) :
    gets C xs (2 ^ xs.length : Nat) = .ok (sVec xs) := by
  unfold gets
  rw [if_neg (not_lt.2 (Int.natCast_nonneg _)), sVec_eq]
  rw [Int.toNat_natCast]
  exact mapM_ok_of fun i _ => by rw [getsAt_eq C i h0, one_mul]

theorem sAt_flip (pre xs : List F) (x : F) (hx : x ≠ 0) {i : Nat} (hi : 2 ^ (xs.length + 1) ∣ i) :
    sAt (pre ++ x :: xs) (i + 2 ^ xs.length) = sAt (pre ++ x :: xs) i * (x * x) := by
  obtain ⟨q, rfl⟩ := hi
  induction pre with
  | nil =>
    have e1 : (2 ^ (xs.length + 1) * q + 2 ^ xs.length) / 2 ^ xs.length % 2 = 1 := by
      have : 2 ^ (xs.length + 1) * q + 2 ^ xs.length = 2 ^ xs.length * (2 * q + 1) := by
        rw [pow_succ]; ring
      rw [this, Nat.mul_div_cancel_left _ (by positivity)]; omega
    have e2 : 2 ^ (xs.length + 1) * q / 2 ^ xs.length % 2 = 0 := by
      have : 2 ^ (xs.length + 1) * q = 2 ^ xs.length * (2 * q) := by rw [pow_succ]; ring
      rw [this, Nat.mul_div_cancel_left _ (by positivity)]; omega
    simp only [List.nil_append, sAt, bit_eq, e1, e2, sAt_low xs le_rfl, if_true]
    rw [if_neg (by decide)]
    field_simp
  | cons d ds ih =>
    have e : (2 ^ (xs.length + 1) * q + 2 ^ xs.length) / 2 ^ (ds ++ x :: xs).length =
        2 ^ (xs.length + 1) * q / 2 ^ (ds ++ x :: xs).length := by
      have hl : (ds ++ x :: xs).length = xs.length + 1 + ds.length := by
        simp [List.length_append]; omega
      rw [hl, pow_add 2 (xs.length + 1) ds.length, ← Nat.div_div_eq_div_mul, ← Nat.div_div_eq_div_mul]
      congr 1
      rw [Nat.mul_div_cancel_left _ (by positivity), Nat.mul_add_div (by positivity),
        Nat.div_eq_of_lt (by rw [pow_succ]; have : 0 < 2 ^ xs.length := by positivity
                             omega), Nat.add_zero]
    simp only [List.cons_append, sAt, bit_eq, e, ih]
    ring

theorem sweep_spec {half : Nat} (hh : 0 < half) {xsq : F} {f : Nat → F} (fuel : Nat) :
    ∀ {i : Nat} {ss : List (Option F)}, 2 * half ∣ i → 2 * half ∣ ss.length →
      ss.length ≤ i + fuel * (2 * half) →
      (∀ q, q < ss.length → 2 * half ∣ q → f (q + half) = f q * xsq) →
      (∀ q, q < ss.length → 2 * half ∣ q → ss[q]? = some (some (f q))) →
      (∀ q, q < i → q < ss.length → 2 * half ∣ q → ss[q + half]? = some (some (f (q + half)))) →
      ∃ ss', sweep half (2 * half) xsq fuel i ss = .ok ss' ∧ ss'.length = ss.length ∧
        ∀ q, q < ss.length → half ∣ q → ss'[q]? = some (some (f q)) := by
  have fin : ∀ {i : Nat} {ss : List (Option F)}, ¬ i < ss.length →
      (∀ q, q < ss.length → 2 * half ∣ q → ss[q]? = some (some (f q))) →
      (∀ q, q < i → q < ss.length → 2 * half ∣ q → ss[q + half]? = some (some (f (q + half)))) →
      ∀ q, q < ss.length → half ∣ q → ss[q]? = some (some (f q)) := by
    intro i ss hi h1 h2 q hq hd
    obtain ⟨c, rfl⟩ := hd
    rcases Nat.even_or_odd' c with ⟨d, rfl | rfl⟩
    · exact h1 _ hq ⟨d, by ring⟩
    · have e : half * (2 * d + 1) = half * (2 * d) + half := by ring
      rw [e] at hq ⊢
      exact h2 _ (by omega) (by omega) ⟨d, by ring⟩
  induction fuel with
  | zero =>
    intro i ss _ _ hlen _ h1 h2
    exact ⟨ss, rfl, rfl, fin (by omega) h1 h2⟩
  | succ fuel ih =>
    intro i ss hi hN hlen hf h1 h2
    unfold sweep
    by_cases hlt : i < ss.length
    · rw [if_pos hlt, h1 i hlt hi]
      have hb : i + half < ss.length := by
        obtain ⟨c, hc⟩ := hi
        obtain ⟨d, hd⟩ := hN
        have : c < d := by
          by_contra hcd
          have := Nat.mul_le_mul_left (2 * half) (Nat.le_of_not_lt hcd)
          omega
        have := Nat.mul_le_mul_left (2 * half) this
        rw [Nat.mul_succ] at this
        omega
      simp only
      rw [if_pos hb]
      have hndvd : ∀ q, 2 * half ∣ q → q ≠ i + half := by
        rintro q ⟨c, hc⟩ e
        obtain ⟨d, hd⟩ := hi
        have e2 : half * (2 * c) = half * (2 * d + 1) := by
          have : 2 * half * c = 2 * half * d + half := by omega
          linarith
        have := Nat.eq_of_mul_eq_mul_left hh e2
        omega
      obtain ⟨ss', hs, hl, hq⟩ := ih (i := i + 2 * half) (ss := ss.set (i + half) (some (f i * xsq)))
        (Nat.dvd_add hi (dvd_refl _)) (by simpa using hN)
        (by simp only [List.length_set]; rw [Nat.add_mul] at hlen; omega)
        (by simpa using hf)
        (by
          intro q hq hd
          rw [List.getElem?_set_ne (Ne.symm (hndvd q hd))]
          exact h1 q (by simpa using hq) hd)
        (by
          intro q hqi hqN hd
          simp only [List.length_set] at hqN
          by_cases e : q = i
          · subst e
            rw [List.getElem?_set_self (by omega), hf q hqN hd]
          · have hqi' : q < i := by
              by_contra hge
              obtain ⟨c, hc⟩ := hd
              obtain ⟨d, hd⟩ := hi
              have h3 : d < c := by
                by_contra hh'
                have := Nat.mul_le_mul_left (2 * half) (Nat.le_of_not_lt hh')
                omega
              have := Nat.mul_le_mul_left (2 * half) h3
              rw [Nat.mul_succ] at this
              omega
            rw [List.getElem?_set_ne (by omega)]
            exact h2 q hqi' hqN hd)
      refine ⟨ss', hs, by simpa using hl, fun q hq1 hq2 => hq q (by simpa using hq1) hq2⟩
    · rw [if_neg hlt]
      exact ⟨ss, rfl, rfl, fin hlt h1 h2⟩

theorem sweeps_spec (pre xs : List F) (h0 : (0 : F) ∉ xs) (ss : List (Option F))
    (hl : ss.length = 2 ^ (pre ++ xs).length)
    (h1 : ∀ q, q < ss.length → 2 ^ xs.length ∣ q → ss[q]? = some (some (sAt (pre ++ xs) q))) :
    ∃ ss', sweeps xs ss = .ok ss' ∧ ss'.length = ss.length ∧
      ∀ q, q < ss.length → ss'[q]? = some (some (sAt (pre ++ xs) q)) := by
  induction xs generalizing pre ss with
  | nil => exact ⟨ss, rfl, rfl, fun q hq => h1 q hq (by simp)⟩
  | cons x xs ih =>
    have hx : x ≠ 0 := fun e => h0 (by simp [e])
    have h2 : (1 <<< (xs.length + 1) : Nat) = 2 * (1 <<< xs.length) := by
      simp [Nat.shiftLeft_eq, pow_succ]; ring
    have h3 : (1 <<< xs.length : Nat) = 2 ^ xs.length := by simp [Nat.shiftLeft_eq]
    have h4 : 2 * 2 ^ xs.length = 2 ^ (xs.length + 1) := by rw [pow_succ]; ring
    have hpos : 0 < 2 ^ xs.length := by positivity
    obtain ⟨ss', hs, hl', hq⟩ := sweep_spec (half := 2 ^ xs.length) hpos (xsq := x * x)
      (f := sAt (pre ++ x :: xs)) ss.length (i := 0) (ss := ss) (dvd_zero _)
      (by rw [hl, h4]; exact pow_dvd_pow 2 (by simp [List.length_append]))
      (by
        have : ss.length * 1 ≤ ss.length * (2 * 2 ^ xs.length) := Nat.mul_le_mul_left _ (by omega)
        omega)
      (fun q _ hd => sAt_flip pre xs x hx (by rw [← h4]; exact hd))
      (fun q hq hd => h1 q hq (by rw [List.length_cons, ← h4]; exact hd))
      (by intro q hq; omega)
    unfold sweeps
    rw [h2, h3, hs, Res.bind_ok]
    have e : (pre ++ [x]) ++ xs = pre ++ x :: xs := by simp
    obtain ⟨ss'', hs', hl'', hq'⟩ := ih (pre ++ [x]) (fun e => h0 (by simp [e])) ss' (by rw [hl', hl, e])
      (by rw [e]; intro q hq1 hq2; exact hq q (by omega) hq2)
    rw [e] at hq'
    exact ⟨ss'', hs', by omega, fun q hq => hq' q (by omega)⟩

theorem sAt_zero (xs : List F) : sAt xs 0 = (xs.foldl (· * ·) 1)⁻¹ := by
  have : ∀ acc : F, xs.foldl (· * ·) acc = acc * (sAt xs 0)⁻¹ := by
    induction xs with
    | nil => simp [sAt]
    | cons x xs ih =>
      intro acc
      rw [List.foldl_cons, ih, sAt]
      rw [bit_eq, Nat.zero_div, if_neg (by decide), mul_inv, inv_inv, mul_assoc]
  rw [this, one_mul, inv_inv]

theorem foldl_ne_zero {xs : List F} (h0 : (0 : F) ∉ xs) {acc : F} (ha : acc ≠ 0) :
    xs.foldl (· * ·) acc ≠ 0 := by
  induction xs generalizing acc with
  | nil => simpa
  | cons x xs ih =>
    rw [List.foldl_cons]
    exact ih (fun e => h0 (by simp [e])) (mul_ne_zero ha fun e => h0 (by simp [e]))

theorem getsNew_eq (C : Curve F G) {xs : List F} (h0 : (0 : F) ∉ xs) :
    getsNew C xs (2 ^ xs.length : Nat) = .ok (sVec xs) := by
  have hpos : 0 < 2 ^ xs.length := by positivity
  unfold getsNew
  rw [if_neg (by omega), invert_ok C (foldl_ne_zero h0 one_ne_zero), Res.bind_ok, Int.toNat_natCast]
  obtain ⟨ss, hs, hl, hq⟩ := sweeps_spec [] xs h0
    (some (xs.foldl (· * ·) 1)⁻¹ :: List.replicate (2 ^ xs.length - 1) none)
    (by simp; omega)
    (by
      intro q hq hd
      simp only [List.length_cons, List.length_replicate] at hq
      have : q = 0 := Nat.eq_zero_of_dvd_of_lt hd (by omega)
      subst this
      simp [sAt_zero])
  rw [hs, Res.bind_ok]
  simp only [List.length_cons, List.length_replicate] at hl hq
  have e : ss = (sVec xs).map some := by
    apply List.ext_getElem?
    intro q
    by_cases h : q < 2 ^ xs.length
    · rw [hq q (by omega), sVec_eq]
      simp [h]
    · rw [List.getElem?_eq_none (by omega), List.getElem?_eq_none (by simp; omega)]
  rw [e]
  have : ((sVec xs).map some).mapM unNil =
      .ok (((sVec xs).map some).map (fun o => o.getD 0)) := by
    apply mapM_ok_of
    intro a ha
    obtain ⟨b, _, rfl⟩ := List.mem_map.1 ha
    rfl
  rw [this, List.map_map]
  simp [Function.comp_def]

theorem sVec_ne_zero {xs : List F} (h0 : (0 : F) ∉ xs) : (0 : F) ∉ sVec xs := by
  induction xs with
  | nil => simp [sVec]
  | cons x xs ih =>
    have hx : x ≠ 0 := fun e => h0 (by simp [e])
    have := ih (fun e => h0 (by simp [e]))
    rw [sVec]
    intro h
    rcases List.mem_append.1 h with h | h <;> obtain ⟨y, hy, e⟩ := List.mem_map.1 h
    · rcases mul_eq_zero.1 e with e | e
      · exact hx (inv_eq_zero.1 e)
      · exact this (e ▸ hy)
    · rcases mul_eq_zero.1 e with e | e
      · exact hx e
      · exact this (e ▸ hy)

theorem invertScalars_eq (C : Curve F G) {s : List F} (h0 : (0 : F) ∉ s) :
    invertScalars C s = .ok (s.map (·⁻¹)) :=
  mapM_ok_of fun a ha => invert_ok C fun e => h0 (e ▸ ha)

end Verif.Bulletproof
