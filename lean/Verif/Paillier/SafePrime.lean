import Verif.Paillier.Props

/-! Model of `/repo/crypto/core/primes.go` and property C123: safe primes and the keys made of them.

Simplifications: `rand.Prime` is the list of its results (`none` a failing read), `ProbablyPrime` a parameter; the loop
runs over a prefix of the results, and `ok none` means that it is still running at the end of the prefix. -/

set_option linter.unusedSectionVars false

namespace Verif.Paillier
open Verif

/-- crypto/core/primes.go:24 the number of rounds of the primality test; truncating after or before the maximum is
the same -/
def checks (bits : Nat) : Nat := max (bits / 16) 8

/-- crypto/core/primes.go:25-39 the loop -/
def safeLoop (probablyPrime : Nat → Nat → Bool) (bits : Nat) : List (Option Nat) → Res (Option Nat)
  | [] => .ok none
  | none :: _ => .err
  | some q :: rest =>
    let p := q <<< 1 + 1
    if probablyPrime p (checks bits) then .ok (some p) else safeLoop probablyPrime bits rest

/-- crypto/core/primes.go:18-42 `GenerateSafePrime`; `draws` are the results of `rand.Prime(rand.Reader, bits-1)` -/
def generateSafePrime (probablyPrime : Nat → Nat → Bool) (bits : Nat) (draws : List (Option Nat)) : Res (Option Nat) :=
  if bits < 3 then .err else safeLoop probablyPrime bits draws

/-- paillier.go:73-109 `NewKeys`, `keyGenerator` around the generator, for two goroutines that both return -/
def newKeys (probablyPrime : Nat → Nat → Bool) (bits : Nat) (d1 d2 : List (Option Nat)) : Res (Option SecretKey) := do
  let p ← generateSafePrime probablyPrime bits d1
  let q ← generateSafePrime probablyPrime bits d2
  match p, q with
  | some p, some q =>
    let sk ← keyGenerator (.ok p) (.ok q)
    .ok (some sk)
  | _, _ => .ok none

/-! ### specification -/

/-- what `crypto/rand.Prime(rand, b)` promises: primes of exactly `b` bits, the two top bits set -/
def PrimeSource (b : Nat) (draws : List (Option Nat)) : Prop :=
  ∀ q, some q ∈ draws → q.Prime ∧ 3 * 2 ^ (b - 2) ≤ q ∧ q < 2 ^ b

/-- a primality test that is right about the numbers it is asked (Miller–Rabin and Lucas: with overwhelming
probability; never wrong about primes, and never wrong below 2⁶⁴) -/
def RightTest (probablyPrime : Nat → Nat → Bool) : Prop := ∀ n k, probablyPrime n k = true ↔ n.Prime

/-- the first acceptable draw: everything before is a failed candidate, no read failed -/
def FirstGood (ok : Nat → Bool) (draws : List (Option Nat)) (q : Nat) : Prop :=
  ∃ pre post : List (Option Nat), draws = pre ++ some q :: post ∧ ok (2 * q + 1) = true ∧
    ∀ x ∈ pre, ∃ r, x = some r ∧ ok (2 * r + 1) = false

theorem shl1 (q : Nat) : q <<< 1 + 1 = 2 * q + 1 := by
  rw [Nat.shiftLeft_eq]; omega

theorem safeLoop_some (pp : Nat → Nat → Bool) (bits : Nat) (draws : List (Option Nat)) (p : Nat) :
    safeLoop pp bits draws = .ok (some p) ↔ ∃ q, p = 2 * q + 1 ∧ FirstGood (fun n => pp n (checks bits)) draws q := by
  induction draws with
  | nil => simp [safeLoop, FirstGood]
  | cons x rest ih =>
    cases x with
    | none =>
      simp only [safeLoop, reduceCtorEq, false_iff]
      rintro ⟨q, -, pre, post, h1, -, h3⟩
      cases pre with
      | nil => simp at h1
      | cons y pre =>
        obtain ⟨r, hr, -⟩ := h3 y (by simp)
        simp only [List.cons_append, List.cons.injEq] at h1
        rw [← h1.1] at hr
        cases hr
    | some q =>
      unfold safeLoop
      dsimp only
      rw [shl1]
      by_cases h : pp (2 * q + 1) (checks bits) = true
      · rw [if_pos h]
        constructor
        · intro e
          cases e
          exact ⟨q, rfl, [], rest, rfl, h, by simp⟩
        · rintro ⟨q', rfl, pre, post, h1, h2, h3⟩
          cases pre with
          | nil => simp only [List.nil_append, List.cons.injEq, Option.some.injEq] at h1; rw [h1.1]
          | cons y pre =>
            obtain ⟨r, hr, hb⟩ := h3 y (by simp)
            simp only [List.cons_append, List.cons.injEq] at h1
            rw [← h1.1] at hr
            cases hr
            simp [h] at hb
      · rw [if_neg h, ih]
        constructor
        · rintro ⟨q', e, pre, post, rfl, h2, h3⟩
          refine ⟨q', e, some q :: pre, post, rfl, h2, ?_⟩
          intro x hx
          rcases List.mem_cons.1 hx with rfl | hx
          · exact ⟨q, rfl, by simpa using h⟩
          · exact h3 x hx
        · rintro ⟨q', e, pre, post, h1, h2, h3⟩
          cases pre with
          | nil =>
            simp only [List.nil_append, List.cons.injEq, Option.some.injEq] at h1
            rw [← h1.1] at h2
            exact absurd h2 h
          | cons y pre =>
            simp only [List.cons_append, List.cons.injEq] at h1
            exact ⟨q', e, pre, post, h1.2, h2, fun x hx => h3 x (List.mem_cons_of_mem _ hx)⟩

/-- **C123** `GenerateSafePrime` returns `p` exactly if at least three bits are asked for and `p = 2q + 1` for the first
draw `q` whose `2q + 1` passes the test, no read having failed before. -/
theorem C123_result (pp : Nat → Nat → Bool) (bits : Nat) (draws : List (Option Nat)) (p : Nat) :
    generateSafePrime pp bits draws = .ok (some p) ↔
      3 ≤ bits ∧ ∃ q, p = 2 * q + 1 ∧ FirstGood (fun n => pp n (checks bits)) draws q := by
  unfold generateSafePrime
  by_cases h : bits < 3
  · rw [if_pos h]; simp; omega
  · rw [if_neg h, safeLoop_some]; simp; omega

/-- **C123** Whatever is returned has passed a test of at least eight rounds, and of at least one round for every sixteen
bits. -/
theorem C123_rounds (pp : Nat → Nat → Bool) (bits : Nat) (draws : List (Option Nat)) (p : Nat)
    (h : generateSafePrime pp bits draws = .ok (some p)) :
    ∃ rounds, 8 ≤ rounds ∧ bits < 16 * (rounds + 1) ∧ pp p rounds = true := by
  obtain ⟨-, q, rfl, -, -, -, h2, -⟩ := (C123_result pp bits draws p).1 h
  exact ⟨checks bits, le_max_right _ _, by unfold checks; omega, h2⟩

/-- **C123** It fails exactly if fewer than three bits are asked for or a read fails before an acceptable draw. -/
theorem C123_error (pp : Nat → Nat → Bool) (bits : Nat) (draws : List (Option Nat)) :
    generateSafePrime pp bits draws = .err ↔ bits < 3 ∨ ∃ pre post : List (Option Nat), draws = pre ++ none :: post ∧
      ∀ x ∈ pre, ∃ r, x = some r ∧ pp (2 * r + 1) (checks bits) = false := by
  unfold generateSafePrime
  by_cases h : bits < 3
  · simp [h]
  rw [if_neg h]
  simp only [h, false_or]
  induction draws with
  | nil => simp [safeLoop]
  | cons x rest ih =>
    cases x with
    | none =>
      simp only [safeLoop, true_iff]
      exact ⟨[], rest, rfl, by simp⟩
    | some q =>
      unfold safeLoop
      dsimp only
      rw [shl1]
      by_cases hp : pp (2 * q + 1) (checks bits) = true
      · rw [if_pos hp]
        simp only [reduceCtorEq, false_iff]
        rintro ⟨pre, post, h1, h3⟩
        cases pre with
        | nil => simp at h1
        | cons y pre =>
          obtain ⟨r, hr, hb⟩ := h3 y (by simp)
          simp only [List.cons_append, List.cons.injEq] at h1
          rw [← h1.1] at hr
          cases hr
          simp [hp] at hb
      · rw [if_neg hp, ih]
        constructor
        · rintro ⟨pre, post, rfl, h3⟩
          refine ⟨some q :: pre, post, rfl, ?_⟩
          intro x hx
          rcases List.mem_cons.1 hx with rfl | hx
          · exact ⟨q, rfl, by simpa using hp⟩
          · exact h3 x hx
        · rintro ⟨pre, post, h1, h3⟩
          cases pre with
          | nil => simp at h1
          | cons y pre =>
            simp only [List.cons_append, List.cons.injEq] at h1
            exact ⟨pre, post, h1.2, fun x hx => h3 x (List.mem_cons_of_mem _ hx)⟩

/-- **C123** The loop ends: once a draw with a prime `2q + 1` has come, it has returned something; it never panics, and it
is still running exactly while every draw so far has failed the test. -/
theorem C123_terminates (pp : Nat → Nat → Bool) (hpp : RightTest pp) (bits : Nat) (draws : List (Option Nat)) :
    generateSafePrime pp bits draws ≠ .panic ∧
      (generateSafePrime pp bits draws = .ok none ↔
        3 ≤ bits ∧ ∀ x ∈ draws, ∃ q, x = some q ∧ ¬ (2 * q + 1).Prime) := by
  unfold generateSafePrime
  by_cases h : bits < 3
  · rw [if_pos h]; simp; omega
  rw [if_neg h]
  have h3 : 3 ≤ bits := by omega
  simp only [h3, true_and]
  induction draws with
  | nil => simp [safeLoop]
  | cons x rest ih =>
    cases x with
    | none => simp [safeLoop]
    | some q =>
      unfold safeLoop
      dsimp only
      rw [shl1]
      by_cases hp : pp (2 * q + 1) (checks bits) = true
      · rw [if_pos hp]
        have := (hpp _ _).1 hp
        simp [this]
      · rw [if_neg hp]
        have hn : ¬ (2 * q + 1).Prime := fun c => hp ((hpp _ _).2 c)
        refine ⟨ih.1, ih.2.trans ?_⟩
        simp [hn]

/-- **C123** What is returned is a safe prime of exactly the length asked for, if the test is right and the source gives
primes of the length asked for. -/
theorem C123_safe_prime (pp : Nat → Nat → Bool) (hpp : RightTest pp) (bits : Nat) (draws : List (Option Nat))
    (hd : PrimeSource (bits - 1) draws) (p : Nat) (h : generateSafePrime pp bits draws = .ok (some p)) :
    p.Prime ∧ ((p - 1) / 2).Prime ∧ 2 ^ (bits - 1) ≤ p ∧ p < 2 ^ bits ∧ 9 * 2 ^ (2 * bits) ≤ 16 * (p * p) ∧
      7 ≤ p := by
  obtain ⟨hb, q, rfl, pre, post, h1, h2, -⟩ := (C123_result pp bits draws p).1 h
  obtain ⟨g1, g2, g3⟩ := hd q (by rw [h1]; simp)
  obtain ⟨b, rfl⟩ : ∃ b, bits = b + 3 := ⟨bits - 3, by omega⟩
  simp only [show b + 3 - 1 = b + 2 from rfl, show b + 2 - 2 = b from rfl] at g2 g3 ⊢
  have e1 : 2 ^ (b + 2) = 4 * 2 ^ b := by rw [pow_add]; ring
  have e2 : 2 ^ (b + 3) = 8 * 2 ^ b := by rw [pow_add]; ring
  have e3 : 2 ^ (2 * (b + 3)) = 64 * (2 ^ b * 2 ^ b) := by rw [mul_comm, pow_mul, e2]; ring
  have hpos : 1 ≤ 2 ^ b := Nat.one_le_two_pow
  refine ⟨(hpp _ _).1 h2, by rwa [show (2 * q + 1 - 1) / 2 = q by omega], by omega, by omega, ?_, by omega⟩
  rw [e3]
  nlinarith [Nat.mul_le_mul g2 g2]

/-- **C123** `NewKeys`: if both generators return, and return different primes, a key comes out whose modulus has exactly
twice the bits, and everything encrypted with a nonce that is a unit is decrypted to itself. -/
theorem C123_keys (pp : Nat → Nat → Bool) (hpp : RightTest pp) (bits : Nat) (d1 d2 : List (Option Nat))
    (h1 : PrimeSource (bits - 1) d1) (h2 : PrimeSource (bits - 1) d2) (p q : Nat)
    (hp : generateSafePrime pp bits d1 = .ok (some p)) (hq : generateSafePrime pp bits d2 = .ok (some q)) (hne : p ≠ q) :
    ∃ sk, newKeys pp bits d1 d2 = .ok (some sk) ∧ sk.N = p * q ∧
      2 ^ (2 * bits - 1) ≤ p * q ∧ p * q < 2 ^ (2 * bits) ∧
      ∀ m r : Int, 0 ≤ m → m < p * q → 0 < r → r < p * q → Int.gcd r (p * q) = 1 →
        ∃ c, sk.toPublicKey.encrypt m r = .ok c ∧ sk.decrypt c = .ok m := by
  obtain ⟨a1, a2, a3, a4, a5, a6⟩ := C123_safe_prime pp hpp bits d1 h1 p hp
  obtain ⟨b1, b2, b3, b4, b5, b6⟩ := C123_safe_prime pp hpp bits d2 h2 q hq
  have hb := ((C123_result pp bits d1 p).1 hp).1
  have ep : p = 2 * ((p - 1) / 2) + 1 := by
    have := a1.eq_two_or_odd; omega
  have eq' : q = 2 * ((q - 1) / 2) + 1 := by
    have := b1.eq_two_or_odd; omega
  have eb : bits = bits - 1 + 1 := by omega
  obtain ⟨sk, k1, k2, k3⟩ := C21_decrypt_encrypt p q a1 b1 hne
    (C21_safe_primes p q _ _ (bits - 1) a1 b1 a2 b2 ep eq' ⟨a3, by rw [← eb]; exact a4⟩ ⟨b3, by rw [← eb]; exact b4⟩)
  refine ⟨sk, ?_, k2, ?_, ?_, ?_⟩
  · unfold newKeys
    rw [hp, hq]
    simp only [Res.bind_ok, keyGenerator, k1]
  · have e : 2 ^ (2 * bits) = 2 * 2 ^ (2 * bits - 1) := by
      rw [← pow_succ']; congr 1; omega
    rw [e] at a5 b5
    by_contra hc
    have hc : p * q < 2 ^ (2 * bits - 1) := by omega
    generalize 2 ^ (2 * bits - 1) = T at *
    rcases Nat.le_total p q with hle | hle
    · have := Nat.mul_le_mul_left p hle
      omega
    · have := Nat.mul_le_mul_right q hle
      omega
  · have e : 2 ^ (2 * bits) = 2 ^ bits * 2 ^ bits := by rw [← pow_add]; congr 1; omega
    rw [e]
    exact Nat.mul_lt_mul'' a4 b4
  · intro m r m0 m1 r0 r1 hg
    obtain ⟨c, c1, -, -, c4⟩ := k3 m r m0 m1 r0 r1 hg
    exact ⟨c, c1, c4⟩

/-- **C123** Negated: nothing compares the two primes (the loop condition compares pointers), so a key is also made of one
prime taken twice, and such a key does not decrypt what it encrypts.  With three bits it cannot be otherwise: 7 is the
only safe prime of that length. -/
theorem C123_equal_primes_violated (pp : Nat → Nat → Bool) (hpp : RightTest pp) :
    PrimeSource 2 [some 3] ∧ ∃ sk, newKeys pp 3 [some 3] [some 3] = .ok (some sk) ∧ sk.N = 49 ∧
      ∃ c, sk.toPublicKey.encrypt 1 2 = .ok c ∧ sk.decrypt c ≠ .ok 1 := by
  have h7 : pp 7 (checks 3) = true := (hpp _ _).2 (by norm_num)
  have hg : generateSafePrime pp 3 [some 3] = .ok (some 7) := by
    rw [C123_result]
    exact ⟨le_refl _, 3, rfl, [], [], rfl, h7, by simp⟩
  refine ⟨by simp [PrimeSource]; norm_num, { N := 49, N2 := 2401, Lambda := 6, Totient := 36, U := 41 }, ?_, rfl, ?_⟩
  · unfold newKeys
    rw [hg]
    decide +kernel
  · exact ⟨1451, by decide +kernel, by decide +kernel⟩

/-- **C123** Negated: asked for four or five bits the function never returns, although 11 and 23 are safe primes of these
lengths: `rand.Prime` sets the two top bits, and the only candidates, 7 and 13, lead to 15 and 27. -/
theorem C123_small_sizes_violated (pp : Nat → Nat → Bool) (hpp : RightTest pp) (bits : Nat) (hb : bits = 4 ∨ bits = 5)
    (draws : List (Option Nat)) (hd : PrimeSource (bits - 1) draws) (hr : none ∉ draws) :
    generateSafePrime pp bits draws = .ok none := by
  refine ((C123_terminates pp hpp bits draws).2).2 ⟨by omega, fun x hx => ?_⟩
  cases x with
  | none => exact absurd hx hr
  | some q =>
    refine ⟨q, rfl, ?_⟩
    obtain ⟨g1, g2, g3⟩ := hd q hx
    rcases hb with rfl | rfl
    · norm_num at g2 g3
      rcases (by omega : q = 6 ∨ q = 7) with rfl | rfl <;> first | (norm_num; done) | exact absurd g1 (by norm_num)
    · norm_num at g2 g3
      rcases (by omega : q = 12 ∨ q = 13 ∨ q = 14 ∨ q = 15) with rfl | rfl | rfl | rfl <;> first | (norm_num; done) | exact absurd g1 (by norm_num)

/-! ### a concrete case -/

example (pp : Nat → Nat → Bool) (hpp : RightTest pp) :
    generateSafePrime pp 6 [some 31, some 29] = .ok (some 59) ∧ PrimeSource 5 [some 31, some 29] := by
  have h63 : pp 63 (checks 6) = false := by
    rw [Bool.eq_false_iff]; intro h; have := (hpp _ _).1 h; norm_num at this
  refine ⟨(C123_result pp 6 _ 59).2 ⟨by norm_num, 29, rfl, [some 31], [], rfl, (hpp _ _).2 (by norm_num), ?_⟩, ?_⟩
  · intro x hx
    rw [List.mem_singleton.1 hx]
    exact ⟨31, rfl, h63⟩
  · intro q hq
    simp at hq
    rcases hq with rfl | rfl <;> norm_num

end Verif.Paillier
