import Verif.Paillier.Lemmas

/-! # Properties C21, C22 (Paillier encryption) and C23 (square-freeness proof) -/

set_option linter.unusedSectionVars false

namespace Verif.Paillier
open Verif

/-- The key-generation precondition of Paillier's scheme: distinct primes whose product is coprime
to its totient. -/
def GoodPrimes (p q : Nat) : Prop :=
  p.Prime ∧ q.Prime ∧ p ≠ q ∧ Int.gcd ((p : Int) * q) (((p : Int) - 1) * ((q : Int) - 1)) = 1

/-- what `NewSecretKey` returns on good primes -/
theorem newSecretKey_good {p q : Nat} (h : GoodPrimes p q) :
    ∃ sk, newSecretKey p q = .ok sk ∧ sk.N = p * q ∧ sk.N2 = sk.N * sk.N ∧
      sk.Totient = (p - 1) * (q - 1) ∧ 0 < sk.Lambda ∧ ((p : Int) - 1) ∣ sk.Lambda ∧
      ((q : Int) - 1) ∣ sk.Lambda ∧ sk.Lambda * sk.U ≡ 1 [ZMOD sk.N] ∧ 1 < sk.N := by
  obtain ⟨hp, hq, hne, hg⟩ := h
  have hp2 := hp.two_le
  have hq2 := hq.two_le
  have hN : (1 : Int) < (p : Int) * q := by
    have : (1 : Int) < p := by exact_mod_cast hp.one_lt
    have : (1 : Int) < q := by exact_mod_cast hq.one_lt
    nlinarith
  obtain ⟨h0, h1, h2, h3⟩ := lcm_eq (x := (p : Int) - 1) (y := (q : Int) - 1) (by omega) (by omega)
  set lam := lcm ((p : Int) - 1) ((q : Int) - 1) with hlam
  have hNN : ((p : Int) * q) * (p * q) ≠ 0 := by positivity
  have ht := expDeref_eq (x := (p : Int) * q + 1) hNN h0.le
  have hl : ({ N := (p : Int) * q, N2 := (p * q) * (p * q) } : PublicKey).l
      (((p : Int) * q + 1) ^ lam.toNat % ((p * q) * (p * q))) = .ok (lam % (p * q)) := by
    apply l_eq hN rfl
    have := one_add_pow ((p : Int) * q) 1 lam.toNat
    rw [one_mul, mul_one, Int.toNat_of_nonneg h0.le] at this
    rw [add_comm ((p : Int) * q) 1]
    exact this
  have hcop : Int.gcd (lam % (p * q)) (p * q) = 1 := by
    rw [Int.gcd_emod]
    rw [Int.gcd_comm] at hg
    have hd : Int.gcd lam (p * q) ∣ Int.gcd (((p : Int) - 1) * (q - 1)) (p * q) := by
      apply Int.gcd_dvd_gcd_of_dvd_left
      exact h3
    rw [hg] at hd
    exact Nat.eq_one_of_dvd_one hd
  have hinv : ∃ u, Big.modInverse (lam % ((p : Int) * q)) (p * q) = some u := by
    unfold Big.modInverse; rw [if_pos hcop]; exact ⟨_, rfl⟩
  obtain ⟨u, hu⟩ := hinv
  have hs := Big.modInverse_spec (by omega) hu
  refine ⟨{ N := p * q, N2 := (p * q) * (p * q), Lambda := lam, Totient := (p - 1) * (q - 1), U := u },
    ?_, rfl, rfl, rfl, h0, h1, h2, ?_, hN⟩
  · unfold newSecretKey
    simp only [← hlam, ht, Res.bind_ok, hl, hu]
  · exact ((Int.mod_modEq lam _).symm.mul_right u).trans hs.2.2

/-- `Decrypt` on a ciphertext whose `λ`-th power is `1 + kN (mod N²)`. -/
theorem decrypt_eq {sk : SecretKey} (hN : 1 < sk.N) (hN2 : sk.N2 = sk.N * sk.N)
    (hl : 0 ≤ sk.Lambda) {c k : Int} (h0 : 0 ≤ c) (h1 : c < sk.N2)
    (hc : c ^ sk.Lambda.toNat ≡ 1 + k * sk.N [ZMOD sk.N * sk.N]) :
    sk.decrypt c = .ok (k * sk.U % sk.N) := by
  unfold SecretKey.decrypt
  rw [inZm_eq, if_neg (by simp; omega)]
  have hpos : 0 < sk.N * sk.N := by positivity
  rw [expDeref_eq (by rw [hN2]; exact hpos.ne') hl]
  simp only [Res.bind_ok]
  have := l_eq (pk := sk.toPublicKey) hN hN2 (x := c ^ sk.Lambda.toNat % sk.N2) (k := k)
    (by rw [hN2]; exact hc)
  rw [this, Res.bind_ok, mul_eq (by omega)]
  congr 1
  rw [Int.mul_emod, Int.emod_emod, ← Int.mul_emod]

/-- conversely, a successful `Decrypt` -/
theorem decrypt_ok {sk : SecretKey} (hN : 1 < sk.N) (hN2 : sk.N2 = sk.N * sk.N)
    (hl : 0 ≤ sk.Lambda) {c m : Int} (h : sk.decrypt c = .ok m) :
    0 ≤ c ∧ c < sk.N2 ∧ ∃ k, c ^ sk.Lambda.toNat ≡ 1 + k * sk.N [ZMOD sk.N * sk.N] ∧
      m = k * sk.U % sk.N := by
  have hpos : 0 < sk.N * sk.N := by positivity
  unfold SecretKey.decrypt at h
  by_cases hc : 0 ≤ c ∧ c < sk.N2
  · rw [inZm_eq, if_neg (by simp; omega), expDeref_eq (by rw [hN2]; exact hpos.ne') hl] at h
    simp only [Res.bind_ok] at h
    obtain ⟨e, he, hm⟩ := Res.bind_eq_ok.1 h
    obtain ⟨-, -, -, h4⟩ := l_ok (by omega) he
    rw [mul_eq (by omega)] at hm
    refine ⟨hc.1, hc.2, e, ?_, (Res.ok.inj hm).symm⟩
    rw [← h4, hN2]
    exact (Int.mod_modEq _ _).symm
  · rw [inZm_eq, if_pos (by simp only [Bool.not_eq_true', decide_eq_false_iff_not]; exact hc)] at h
    cases h

/-- the ciphertext formula -/
theorem encrypt_eq {pk : PublicKey} (hN : 1 < pk.N) (hN2 : pk.N2 = pk.N * pk.N) {m r : Int}
    (hm : 0 ≤ m ∧ m < pk.N) (hr : 0 < r ∧ r < pk.N) :
    ∃ c, pk.encrypt m r = .ok c ∧ 0 ≤ c ∧ c < pk.N2 ∧
      c ≡ (pk.N + 1) ^ m.toNat * r ^ pk.N.toNat [ZMOD pk.N * pk.N] := by
  have hpos : 0 < pk.N * pk.N := by positivity
  unfold PublicKey.encrypt
  simp only [inZm_eq, ceq]
  rw [if_neg (by simp; omega), if_neg (by simp; omega), if_neg (by simp; omega),
    expDeref_eq (by rw [hN2]; exact hpos.ne') hm.1, Res.bind_ok,
    expDeref_eq (by rw [hN2]; exact hpos.ne') (by omega), Res.bind_ok,
    mul_eq (by rw [hN2]; exact hpos.ne')]
  refine ⟨_, rfl, ?_, ?_, ?_⟩
  · rw [hN2]; exact Int.emod_nonneg _ hpos.ne'
  · rw [hN2]; exact Int.emod_lt_of_pos _ hpos
  · rw [hN2]
    refine (Int.mod_modEq _ _).trans ?_
    exact (Int.mod_modEq _ _).mul (Int.mod_modEq _ _)

theorem not_dvd_of_coprime {p : Nat} (hp : p.Prime) {r n : Int} (hn : (p : Int) ∣ n)
    (h : Int.gcd r n = 1) : ¬ (p : Int) ∣ r := by
  intro hd
  have : (p : Int) ∣ (Int.gcd r n : Int) := Int.dvd_coe_gcd hd hn
  rw [h] at this
  have h2 : p ∣ 1 := by exact_mod_cast this
  exact hp.one_lt.ne' (Nat.eq_one_of_dvd_one h2)

theorem coprime_primes {p q : Nat} (hp : p.Prime) (hq : q.Prime) (h : p ≠ q) :
    IsCoprime (p : Int) (q : Int) :=
  Nat.isCoprime_iff_coprime.2 ((Nat.coprime_primes hp hq).2 h)

/-- for a unit `r`, `r^(N·λ) ≡ 1 (mod N²)` -/
theorem nonce_pow {p q : Nat} (h : GoodPrimes p q) {N lam r : Int} (hN : N = p * q) (hN0 : 0 ≤ N)
    (hl : 0 ≤ lam) (h1 : ((p : Int) - 1) ∣ lam) (h2 : ((q : Int) - 1) ∣ lam)
    (hr : Int.gcd r N = 1) : (r ^ N.toNat) ^ lam.toNat ≡ 1 [ZMOD N * N] := by
  obtain ⟨hp, hq, hne, -⟩ := h
  have e1 : r ^ lam.toNat ≡ 1 [ZMOD N] := by
    rw [hN]
    refine modEq_mul (coprime_primes hp hq hne) ?_ ?_
    · exact fermat hp (not_dvd_of_coprime hp ⟨q, hN⟩ hr) (by rwa [Int.toNat_of_nonneg hl])
    · exact fermat hq (not_dvd_of_coprime hq ⟨p, by rw [hN]; ring⟩ hr)
        (by rwa [Int.toNat_of_nonneg hl])
  rw [← pow_mul, mul_comm N.toNat, pow_mul]
  exact modEq_one_pow e1 _ (by rw [Int.toNat_of_nonneg hN0])

/-- **C21** For distinct primes `p`, `q` with `gcd(pq,(p-1)(q-1)) = 1`: `NewSecretKey` succeeds, and
for every message `0 ≤ m < N` and every nonce `0 < r < N` that is a unit modulo `N`, encryption
under the public key succeeds with a ciphertext in `[0,N²)`, and decryption returns exactly `m`. -/
theorem C21_decrypt_encrypt (p q : Nat) (hp : p.Prime) (hq : q.Prime) (hne : p ≠ q)
    (hg : Int.gcd ((p : Int) * q) (((p : Int) - 1) * ((q : Int) - 1)) = 1) :
    ∃ sk, newSecretKey p q = .ok sk ∧ sk.N = p * q ∧
      ∀ m r : Int, 0 ≤ m → m < p * q → 0 < r → r < p * q → Int.gcd r (p * q) = 1 →
        ∃ c, sk.toPublicKey.encrypt m r = .ok c ∧ 0 ≤ c ∧ c < (p * q) ^ 2 ∧ sk.decrypt c = .ok m := by
  have hgood : GoodPrimes p q := ⟨hp, hq, hne, hg⟩
  obtain ⟨sk, hsk, hN, hN2, -, hl, hl1, hl2, hu, hN1⟩ := newSecretKey_good hgood
  refine ⟨sk, hsk, hN, fun m r hm0 hm hr0 hr hrg => ?_⟩
  rw [← hN] at hm hr hrg ⊢
  obtain ⟨c, hc, hc0, hc1, hcm⟩ := encrypt_eq (pk := sk.toPublicKey) hN1 hN2 ⟨hm0, hm⟩ ⟨hr0, hr⟩
  refine ⟨c, hc, hc0, by rw [sq, ← hN2]; exact hc1, ?_⟩
  have hpow : c ^ sk.Lambda.toNat ≡ 1 + (m * sk.Lambda) * sk.N [ZMOD sk.N * sk.N] := by
    refine (hcm.pow _).trans ?_
    rw [mul_pow]
    have e1 := nonce_pow hgood hN (by omega) hl.le hl1 hl2 hrg
    have e2 := one_add_pow sk.N 1 (m.toNat * sk.Lambda.toNat)
    rw [one_mul, mul_one] at e2
    push_cast at e2
    rw [Int.toNat_of_nonneg hm0, Int.toNat_of_nonneg hl.le] at e2
    rw [← pow_mul, add_comm sk.N 1]
    have := e2.mul e1
    rwa [mul_one] at this
  rw [decrypt_eq hN1 hN2 hl.le hc0 hc1 hpow]
  congr 1
  have : m * sk.Lambda * sk.U ≡ m [ZMOD sk.N] := by
    have := hu.mul_left m
    rwa [mul_one, ← mul_assoc] at this
  rw [this, Int.emod_eq_of_lt hm0 hm]

/-- **C21** Out-of-range messages, nonces and ciphertexts are rejected with an error, for every key. -/
theorem C21_range_rejected (pk : PublicKey) (sk : SecretKey) (m r c : Int) :
    ((m < 0 ∨ pk.N ≤ m) → pk.encrypt m r = .err) ∧
    ((r ≤ 0 ∨ pk.N ≤ r) → pk.encrypt m r = .err) ∧
    ((c < 0 ∨ sk.N2 ≤ c) → sk.decrypt c = .err) := by
  refine ⟨fun h => ?_, fun h => ?_, fun h => ?_⟩
  · unfold PublicKey.encrypt
    rw [inZm_eq, if_pos]
    simp; omega
  · unfold PublicKey.encrypt
    simp only [inZm_eq, ceq]
    split
    · rfl
    · by_cases h0 : r = 0
      · split
        · rfl
        · rw [if_pos (by simp [h0])]
      · rw [if_pos]
        simp; omega
  · unfold SecretKey.decrypt
    rw [inZm_eq, if_pos]
    simp; omega

/-- **C21** `Decrypt` never returns a value outside `[0,N)`. -/
theorem C21_decrypt_range (sk : SecretKey) (hN : 0 < sk.N) (c m : Int) (h : sk.decrypt c = .ok m) :
    0 ≤ m ∧ m < sk.N := by
  unfold SecretKey.decrypt at h
  split at h
  · cases h
  · obtain ⟨a, -, h⟩ := Res.bind_eq_ok.1 h
    obtain ⟨e, -, h⟩ := Res.bind_eq_ok.1 h
    rw [mul_eq hN.ne'] at h
    rw [← Res.ok.inj h]
    exact ⟨Int.emod_nonneg _ hN.ne', Int.emod_lt_of_pos _ hN⟩

/-- **C21** Safe primes of the same bit length (which is what `NewKeys` draws) satisfy the
coprimality condition, provided they are distinct. -/
theorem C21_safe_primes (p q p' q' k : Nat) (hp : p.Prime) (hq : q.Prime) (hp' : p'.Prime)
    (hq' : q'.Prime) (hsp : p = 2 * p' + 1) (hsq : q = 2 * q' + 1)
    (hpk : 2 ^ k ≤ p ∧ p < 2 ^ (k + 1)) (hqk : 2 ^ k ≤ q ∧ q < 2 ^ (k + 1)) :
    Int.gcd ((p : Int) * q) (((p : Int) - 1) * ((q : Int) - 1)) = 1 := by
  have e : (((p : Int) - 1) * ((q : Int) - 1)) = (((2 * p') * (2 * q') : Nat) : Int) := by
    rw [hsp, hsq]; push_cast; ring
  have e2 : ((p : Int) * q) = ((p * q : Nat) : Int) := by push_cast; ring
  rw [e, e2, Int.gcd_natCast_natCast]
  have aux : ∀ a b c : Nat, a.Prime → b.Prime → c.Prime → (∃ d, a = 2 * d + 1) → a ≠ b → a ≠ c →
      Nat.Coprime a ((2 * b) * (2 * c)) := by
    intro a b c ha hb hc hd hab hac
    have h2 : Nat.Coprime a 2 := by
      rw [Nat.coprime_primes ha Nat.prime_two]
      obtain ⟨d, hd⟩ := hd; omega
    exact (h2.mul_right ((Nat.coprime_primes ha hb).2 hab)).mul_right
      (h2.mul_right ((Nat.coprime_primes ha hc).2 hac))
  have hk := pow_succ 2 k
  refine Nat.Coprime.mul_left (aux p p' q' hp hp' hq' ⟨p', hsp⟩ ?_ ?_)
    (aux q p' q' hq hp' hq' ⟨q', hsq⟩ ?_ ?_) <;> omega

example : ∃ sk, newSecretKey 11 7 = .ok sk ∧ sk.toPublicKey.encrypt 42 2 = .ok 2713 ∧
    sk.decrypt 2713 = .ok 42 := by
  refine ⟨{ N := 77, N2 := 5929, Lambda := 30, Totient := 60, U := 18 }, ?_, ?_, ?_⟩ <;> decide +kernel

theorem dvd_emod' {s a b : Int} (ha : s ∣ a) (hb : s ∣ b) : s ∣ a % b := by
  rw [Int.emod_def]
  exact Int.dvd_sub ha (dvd_mul_of_dvd_left hb _)

/-- **C21** (finding) `Encrypt` draws its nonce with `core.Rand`, which does not test that it is a
unit.  For every key built from good primes, every message, and every in-range nonce sharing a
factor with `N`, encryption *succeeds* and the ciphertext cannot be decrypted. -/
theorem C21_nonunit_nonce (p q : Nat) (hp : p.Prime) (hq : q.Prime) (hne : p ≠ q)
    (hg : Int.gcd ((p : Int) * q) (((p : Int) - 1) * ((q : Int) - 1)) = 1) :
    ∃ sk, newSecretKey p q = .ok sk ∧
      ∀ m r : Int, 0 ≤ m → m < p * q → 0 < r → r < p * q → Int.gcd r (p * q) ≠ 1 →
        ∃ c, sk.toPublicKey.encrypt m r = .ok c ∧ sk.decrypt c = .err := by
  obtain ⟨sk, hsk, hN, hN2, -, hl, -, -, -, hN1⟩ := newSecretKey_good ⟨hp, hq, hne, hg⟩
  refine ⟨sk, hsk, fun m r hm0 hm hr0 hr hrg => ?_⟩
  rw [← hN] at hm hr hrg
  obtain ⟨c, hc, hc0, hc1, hcm⟩ := encrypt_eq (pk := sk.toPublicKey) hN1 hN2 ⟨hm0, hm⟩ ⟨hr0, hr⟩
  refine ⟨c, hc, ?_⟩
  have hpos : 0 < sk.N * sk.N := by positivity
  obtain ⟨s, hs, hsd⟩ := Nat.exists_prime_and_dvd hrg
  have hsr : (s : Int) ∣ r := (Int.natCast_dvd_natCast.2 hsd).trans (Int.gcd_dvd_left ..)
  have hsN : (s : Int) ∣ sk.N := (Int.natCast_dvd_natCast.2 hsd).trans (Int.gcd_dvd_right ..)
  have hsc : (s : Int) ∣ c := by
    have h1 : (s : Int) ∣ (sk.N + 1) ^ m.toNat * r ^ sk.N.toNat :=
      dvd_mul_of_dvd_right (dvd_pow hsr (by omega)) _
    have h2 : (s : Int) ∣ sk.N * sk.N := dvd_mul_of_dvd_left hsN _
    have h3 := hcm.dvd
    have h4 := (h2.trans h3)
    have := Int.dvd_sub h1 h4
    rwa [sub_sub_cancel] at this
  unfold SecretKey.decrypt
  rw [inZm_eq, if_neg (by simp; exact ⟨hc0, hc1⟩),
    expDeref_eq (by rw [hN2]; exact hpos.ne') hl.le]
  simp only [Res.bind_ok]
  cases hle : sk.toPublicKey.l (c ^ sk.Lambda.toNat % sk.N2) with
  | err => rfl
  | panic =>
    exfalso
    unfold PublicKey.l at hle
    simp only [ceq, inZm_eq, Big.mod] at hle
    rw [if_neg (by simp; omega), if_neg (by omega)] at hle
    simp only [Res.bind_ok] at hle
    split at hle
    · cases hle
    · split at hle <;> cases hle
  | ok e =>
    exfalso
    obtain ⟨h1, -, -, -⟩ := l_ok (by omega) hle
    have hd1 : (s : Int) ∣ c ^ sk.Lambda.toNat := dvd_pow hsc (by omega)
    have hd2 : (s : Int) ∣ c ^ sk.Lambda.toNat % sk.N2 := by
      rw [hN2]
      exact dvd_emod' hd1 (dvd_mul_of_dvd_left hsN _)
    have hd3 : (s : Int) ∣ (c ^ sk.Lambda.toNat % sk.N2) % sk.N := dvd_emod' hd2 hsN
    have h1' : (c ^ sk.Lambda.toNat % sk.N2) % sk.N = 1 := h1
    rw [h1'] at hd3
    have : s ∣ 1 := by exact_mod_cast hd3
    exact hs.one_lt.ne' (Nat.eq_one_of_dvd_one this)

/-- **C21** (finding) the nonce that breaks decryption can come from `Encrypt`'s own generator. -/
theorem C21_nonunit_nonce_reachable :
    ∃ sk, newSecretKey 11 7 = .ok sk ∧
      ∃ c, sk.toPublicKey.Encrypt 42 [22] = .ok (some (c, 22)) ∧ sk.decrypt c = .err := by
  refine ⟨{ N := 77, N2 := 5929, Lambda := 30, Totient := 60, U := 18 }, by decide +kernel, ?_⟩
  exact ⟨3872, by decide +kernel, by decide +kernel⟩

/-- **C21** (finding) `NewSecretKey` does not notice that `λ` has no inverse modulo `N`: with
`p = 3`, `q = 7` it returns a key, and `Decrypt(Encrypt(1)) = 15`. -/
theorem C21_noninvertible_key :
    ∃ sk, newSecretKey 3 7 = .ok sk ∧
      ∃ c, sk.toPublicKey.encrypt 1 2 = .ok c ∧ sk.decrypt c = .ok 15 := by
  exact ⟨{ N := 21, N2 := 441, Lambda := 6, Totient := 12, U := 6 }, by decide +kernel, 365,
    by decide +kernel, by decide +kernel⟩

/-- **C21** (finding) key generation compares the two prime *pointers*, so two equal primes are
accepted, and the resulting key decrypts wrongly: with `p = q = 5`,
`Decrypt(Encrypt(1; r=2)) ≠ 1`. -/
theorem C21_equal_primes_accepted :
    ∃ sk, keyGenerator (.ok 5) (.ok 5) = .ok sk ∧
      ∃ c, sk.toPublicKey.encrypt 1 2 = .ok c ∧ sk.decrypt c ≠ .ok 1 := by
  exact ⟨{ N := 25, N2 := 625, Lambda := 4, Totient := 16, U := 19 }, by decide +kernel, 232,
    by decide +kernel, by decide +kernel⟩

/-! ### C22 -/

/-- **C22** For a key built from good primes and *every* pair of ciphertexts that decrypt (to `a`
and `b`), `Add` succeeds and its result decrypts to `a+b mod N`; for every scalar `0 ≤ k < N`,
`Mul` succeeds and its result decrypts to `k·a mod N`. -/
theorem C22_homomorphic (p q : Nat) (hp : p.Prime) (hq : q.Prime) (hne : p ≠ q)
    (hg : Int.gcd ((p : Int) * q) (((p : Int) - 1) * ((q : Int) - 1)) = 1) :
    ∃ sk, newSecretKey p q = .ok sk ∧
      ∀ c d a b : Int, sk.decrypt c = .ok a → sk.decrypt d = .ok b →
        (∃ e, sk.toPublicKey.add c d = .ok e ∧ sk.decrypt e = .ok ((a + b) % (p * q))) ∧
        (∀ k : Int, 0 ≤ k → k < p * q →
          ∃ e, sk.toPublicKey.mul k c = .ok (some e) ∧ sk.decrypt e = .ok (k * a % (p * q))) := by
  obtain ⟨sk, hsk, hN, hN2, -, hl, -, -, -, hN1⟩ := newSecretKey_good ⟨hp, hq, hne, hg⟩
  refine ⟨sk, hsk, fun c d a b hc hd => ?_⟩
  rw [← hN]
  have hpos : 0 < sk.N * sk.N := by positivity
  obtain ⟨c0, c1, k1, hk1, ha⟩ := decrypt_ok hN1 hN2 hl.le hc
  obtain ⟨d0, d1, k2, hk2, hb⟩ := decrypt_ok hN1 hN2 hl.le hd
  constructor
  · refine ⟨c * d % sk.N2, ?_, ?_⟩
    · unfold PublicKey.add
      simp only [inZm_eq]
      rw [if_neg (by simp; omega), mul_eq (by rw [hN2]; exact hpos.ne')]
    · rw [decrypt_eq hN1 hN2 hl.le (k := k1 + k2) (Int.emod_nonneg _ (by rw [hN2]; exact hpos.ne'))
        (Int.emod_lt_of_pos _ (by rw [hN2]; exact hpos))]
      · rw [ha, hb, ← Int.add_emod, add_mul]
      · rw [hN2]
        refine ((Int.mod_modEq _ _).pow _).trans ?_
        rw [mul_pow]
        refine (hk1.mul hk2).trans ?_
        rw [Int.modEq_iff_dvd]
        exact ⟨-(k1 * k2), by ring⟩
  · intro k hk0 hkN
    refine ⟨c ^ k.toNat % sk.N2, ?_, ?_⟩
    · unfold PublicKey.mul
      simp only [inZm_eq]
      rw [if_neg (by simp; omega)]
      simp only [Big.exp, hN2, hpos.ne', if_false, hk0, if_true]
    · rw [decrypt_eq hN1 hN2 hl.le (k := k * k1) (Int.emod_nonneg _ (by rw [hN2]; exact hpos.ne'))
        (Int.emod_lt_of_pos _ (by rw [hN2]; exact hpos))]
      · rw [ha]
        congr 1
        have : k * (k1 * sk.U % sk.N) ≡ k * (k1 * sk.U) [ZMOD sk.N] := (Int.mod_modEq _ _).mul_left k
        rw [this, mul_assoc]
      · rw [hN2]
        refine ((Int.mod_modEq _ _).pow _).trans ?_
        rw [← pow_mul, mul_comm k.toNat, pow_mul]
        refine (hk1.pow _).trans ?_
        refine (one_add_pow _ _ _).trans ?_
        rw [Int.toNat_of_nonneg hk0]

/-- **C22** `Add` and `Mul` reject operands outside their ranges, for every public key. -/
theorem C22_range_rejected (pk : PublicKey) (c d a : Int) :
    ((c < 0 ∨ pk.N2 ≤ c ∨ d < 0 ∨ pk.N2 ≤ d) → pk.add c d = .err) ∧
    ((a < 0 ∨ pk.N ≤ a ∨ c < 0 ∨ pk.N2 ≤ c) → pk.mul a c = .err) := by
  constructor
  · intro h
    unfold PublicKey.add
    simp only [inZm_eq]
    rw [if_pos]
    simp; omega
  · intro h
    unfold PublicKey.mul
    simp only [inZm_eq]
    rw [if_pos]
    simp; omega

/-- **C22** corollary on honest encryptions: sums and scalar multiples of plaintexts. -/
theorem C22_encryptions (p q : Nat) (hp : p.Prime) (hq : q.Prime) (hne : p ≠ q)
    (hg : Int.gcd ((p : Int) * q) (((p : Int) - 1) * ((q : Int) - 1)) = 1) :
    ∃ sk, newSecretKey p q = .ok sk ∧
      ∀ a b r s : Int, 0 ≤ a → a < p * q → 0 ≤ b → b < p * q → 0 < r → r < p * q → 0 < s → s < p * q →
        Int.gcd r (p * q) = 1 → Int.gcd s (p * q) = 1 →
        ∃ ca cb e f, sk.toPublicKey.encrypt a r = .ok ca ∧ sk.toPublicKey.encrypt b s = .ok cb ∧
          sk.toPublicKey.add ca cb = .ok e ∧ sk.decrypt e = .ok ((a + b) % (p * q)) ∧
          sk.toPublicKey.mul a cb = .ok (some f) ∧ sk.decrypt f = .ok (a * b % (p * q)) := by
  obtain ⟨sk, hsk, -, hE⟩ := C21_decrypt_encrypt p q hp hq hne hg
  obtain ⟨sk', hsk', hH⟩ := C22_homomorphic p q hp hq hne hg
  rw [hsk] at hsk'
  cases Res.ok.inj hsk'
  refine ⟨sk, hsk, fun a b r s a0 a1 b0 b1 r0 r1 s0 s1 hr hs => ?_⟩
  obtain ⟨ca, h1, -, -, h2⟩ := hE a r a0 a1 r0 r1 hr
  obtain ⟨cb, h3, -, -, h4⟩ := hE b s b0 b1 s0 s1 hs
  obtain ⟨⟨e, h5, h6⟩, -⟩ := hH ca cb a b h2 h4
  obtain ⟨-, h7⟩ := hH cb ca b a h4 h2
  obtain ⟨f, h8, h9⟩ := h7 a a0 a1
  exact ⟨ca, cb, e, f, h1, h3, h5, h6, h8, h9⟩

example : GoodPrimes 11 7 := by unfold GoodPrimes; refine ⟨by norm_num, by norm_num, by norm_num, by decide +kernel⟩

/-! ### C23 -/

/-- For squarefree `N = pq` and `e ≡ 1 (mod (p-1)(q-1))`: `x^e ≡ x (mod N)` for **every** `x`. -/
theorem pow_eq_self {p q : Nat} (hp : p.Prime) (hq : q.Prime) (hne : p ≠ q) {e : Nat} (he0 : 0 < e)
    (he : ((p : Int) - 1) * (q - 1) ∣ (e : Int) - 1) (x : Int) : x ^ e ≡ x [ZMOD (p : Int) * q] := by
  have aux : ∀ s : Nat, s.Prime → ((s : Int) - 1) ∣ (e : Int) - 1 → x ^ e ≡ x [ZMOD s] := by
    intro s hs hd
    by_cases hx : (s : Int) ∣ x
    · have h1 : x ≡ 0 [ZMOD s] := Int.modEq_zero_iff_dvd.2 hx
      have h2 : x ^ e ≡ 0 [ZMOD s] := Int.modEq_zero_iff_dvd.2 (dvd_pow hx he0.ne')
      exact h2.trans h1.symm
    · have h1 := fermat hs hx (e := e - 1) (by rw [Nat.cast_sub he0]; exact_mod_cast hd)
      have h2 := h1.mul_right x
      rw [← pow_succ, Nat.sub_add_cancel he0, one_mul] at h2
      exact h2
  exact modEq_mul (coprime_primes hp hq hne) (aux p hp (Dvd.dvd.trans ⟨_, rfl⟩ he))
    (aux q hq (Dvd.dvd.trans ⟨_, by rw [mul_comm]⟩ he))

theorem verifyLoop_ok_iff (p : List (Option Int)) {N : Int} (hN : 0 < N) (j : Nat) (xs : List Int) :
    psfVerifyLoop p N j xs = .ok () ↔
      ∀ i (hi : i < xs.length), ∃ y, p[j + i]? = some (some y) ∧ y ^ N.toNat % N = xs[i] := by
  induction xs generalizing j with
  | nil => simp [psfVerifyLoop]
  | cons x xs ih =>
    unfold psfVerifyLoop
    have hexp : ∀ y : Int, Big.exp y N (some N) = some (y ^ N.toNat % N) := by
      intro y
      simp only [Big.exp, hN.ne', if_false, hN.le, if_true]
    constructor
    · intro h i hi
      cases hp : p[j]? with
      | none => rw [hp] at h; cases h
      | some oy =>
        rw [hp] at h
        cases oy with
        | none => simp [CoreMod.exp] at h
        | some y =>
          simp only [CoreMod.exp, hexp, Res.bind_ok] at h
          by_cases hx : y ^ N.toNat % N = x
          · rw [if_neg (by simpa using hx)] at h
            cases i with
            | zero => exact ⟨y, by simpa using hp, by simpa using hx⟩
            | succ i =>
              obtain ⟨z, h1, h2⟩ := (ih (j + 1)).1 h i (by simpa using hi)
              exact ⟨z, by rw [← h1]; congr 1; omega, by simpa using h2⟩
          · rw [if_pos (by simpa using hx)] at h; cases h
    · intro h
      obtain ⟨y, h1, h2⟩ := h 0 (by simp)
      simp only [Nat.add_zero] at h1
      rw [h1]
      simp only [CoreMod.exp, hexp, Res.bind_ok]
      rw [if_neg (by simpa using h2)]
      refine (ih (j + 1)).2 fun i hi => ?_
      obtain ⟨z, h3, h4⟩ := h (i + 1) (by simpa using hi)
      exact ⟨z, by rw [← h3]; congr 1; omega, by simpa using h4⟩

/-- **C23** Soundness of the check: for every public modulus `N > 0`, curve order `q`, challenge list
and purported proof, `Verify` accepts iff `q ∤ N`, there are exactly 13 challenges, and for every
`j < 13` the `j`-th proof element `y` exists and `y^N mod N = x_j`. -/
theorem C23_verify_iff (pk : PublicKey) (hN : 0 < pk.N) (q : Int) (hq : q ≠ 0) (xs : List Int)
    (p : List (Option Int)) :
    psfVerify (.ok xs) q pk p = .ok () ↔
      ¬ q ∣ pk.N ∧ xs.length = 13 ∧
      ∀ j (hj : j < xs.length), ∃ y, p[j]? = some (some y) ∧ y ^ pk.N.toNat % pk.N = xs[j] := by
  unfold psfVerify
  simp only [Big.mod, hq, if_false, Res.bind_ok, psfProofLength]
  rw [Int.dvd_iff_emod_eq_zero]
  by_cases h1 : pk.N % q = 0
  · simp [h1]
  · by_cases h2 : xs.length = 13
    · simp only [h1, if_false, h2, ne_eq, not_true_eq_false, not_false_eq_true, true_and]
      rw [verifyLoop_ok_iff p hN 0 xs]
      simp only [Nat.zero_add, h2]
    · simp [h1, h2]

theorem mapM_exp (M N : Int) (hM : 0 ≤ M) (hN : N ≠ 0) (xs : List Int) :
    (xs.mapM fun xj => CoreMod.exp (some xj) (some M) (some N)) =
      .ok (xs.map fun x => some (x ^ M.toNat % N)) := by
  induction xs with
  | nil => rfl
  | cons x xs ih =>
    rw [List.mapM_cons, ih]
    simp [CoreMod.exp, Big.exp, hN, hM]

/-- **C23** Completeness: for a key built from good primes, every curve order `q ∤ N`, and every list
of 13 challenges in `[0,N)` (units or not), `Prove` succeeds and `Verify` accepts its output. -/
theorem C23_complete (p q : Nat) (hp : p.Prime) (hq : q.Prime) (hne : p ≠ q)
    (hg : Int.gcd ((p : Int) * q) (((p : Int) - 1) * ((q : Int) - 1)) = 1) (order : Int)
    (ho : order ≠ 0) (hoN : ¬ order ∣ (p : Int) * q) (xs : List Int) (hlen : xs.length = 13)
    (hx : ∀ x ∈ xs, 0 ≤ x ∧ x < (p : Int) * q) :
    ∃ sk, newSecretKey p q = .ok sk ∧ ∃ pf, psfProve (.ok xs) sk = .ok pf ∧
      psfVerify (.ok xs) order sk.toPublicKey pf = .ok () := by
  obtain ⟨sk, hsk, hN, hN2, hT, hl, -, -, -, hN1⟩ := newSecretKey_good ⟨hp, hq, hne, hg⟩
  refine ⟨sk, hsk, ?_⟩
  have hT0 : 0 < sk.Totient := by
    rw [hT]
    have := hp.two_le
    have := hq.two_le
    exact mul_pos (by omega) (by omega)
  have hinv : ∃ M, Big.modInverse sk.N sk.Totient = some M := by
    unfold Big.modInverse
    rw [hN, hT, if_pos hg]; exact ⟨_, rfl⟩
  obtain ⟨M, hM⟩ := hinv
  obtain ⟨hM0, -, hM2⟩ := Big.modInverse_spec hT0.ne' hM
  refine ⟨xs.map fun x => some (x ^ M.toNat % sk.N), ?_, ?_⟩
  · unfold psfProve
    simp only [CoreMod.inv, hM, Res.bind_ok, hlen, psfProofLength, ne_eq, not_true_eq_false, if_false]
    exact mapM_exp _ _ hM0 (by omega) xs
  · rw [C23_verify_iff sk.toPublicKey (by simpa using (by omega : 0 < sk.N)) order ho]
    refine ⟨by simpa [hN] using hoN, hlen, fun j hj => ?_⟩
    refine ⟨xs[j] ^ M.toNat % sk.N, by simp [hj], ?_⟩
    obtain ⟨x0, x1⟩ := hx xs[j] (List.getElem_mem hj)
    have e1 : (xs[j] ^ M.toNat % sk.N) ^ sk.N.toNat ≡ xs[j] ^ (M.toNat * sk.N.toNat) [ZMOD sk.N] := by
      rw [pow_mul]; exact (Int.mod_modEq _ _).pow _
    -- the exponent is 1 modulo the totient
    have hd : ((p : Int) - 1) * (q - 1) ∣ ((M.toNat * sk.N.toNat : Nat) : Int) - 1 := by
      push_cast
      rw [Int.toNat_of_nonneg hM0, Int.toNat_of_nonneg (by omega : 0 ≤ sk.N), ← hT, mul_comm]
      exact (hM2.symm).dvd
    have hpos : 0 < M.toNat * sk.N.toNat := by
      rcases Nat.eq_zero_or_pos (M.toNat * sk.N.toNat) with h0 | h0
      · -- then the totient is 1, impossible for distinct primes
        exfalso
        rw [h0] at hd
        have h1 : ((p : Int) - 1) * (q - 1) ∣ 1 := by simpa using hd
        have h2 := Int.le_of_dvd one_pos h1
        have := hp.two_le
        have := hq.two_le
        have h3 : (2 : Int) ≤ p := by omega
        have h4 : (2 : Int) ≤ q := by omega
        have h5 : (p : Int) ≠ q := by exact_mod_cast hne
        have h6 : (5 : Int) ≤ p + q := by omega
        nlinarith
      · exact h0
    have e2 := pow_eq_self hp hq hne hpos hd xs[j]
    rw [← hN] at e2 x1
    have e3 := e1.trans e2
    rw [Int.ModEq, Int.emod_eq_of_lt x0 x1] at e3
    exact e3

/-- **C23** What acceptance says about a non-square-free modulus: if `s² ∣ N` for a prime `s`, then an
accepted proof forces every challenge prime to `s` into the `s`-th powers modulo `s²`
(`x^(s-1) ≡ 1 (mod s²)`), a fraction `1/s` of the units. -/
theorem C23_nonsquarefree (pk : PublicKey) (hN : 0 < pk.N) (q : Int) (hq : q ≠ 0) (xs : List Int)
    (p : List (Option Int)) (h : psfVerify (.ok xs) q pk p = .ok ()) (s : Nat) (hs : s.Prime)
    (hsN : (s : Int) * s ∣ pk.N) (x : Int) (hx : x ∈ xs) (hsx : ¬ (s : Int) ∣ x) :
    x ^ (s - 1) ≡ 1 [ZMOD (s : Int) * s] := by
  obtain ⟨-, -, h3⟩ := (C23_verify_iff pk hN q hq xs p).1 h
  obtain ⟨j, hj, rfl⟩ := List.getElem_of_mem hx
  obtain ⟨y, -, hy⟩ := h3 j hj
  have e1 : y ^ pk.N.toNat ≡ xs[j] [ZMOD (s : Int) * s] := by
    rw [← hy]
    exact ((Int.mod_modEq _ _).symm).of_dvd hsN
  refine ((e1.symm).pow _).trans ?_
  have hsN' : (s : Int) ∣ pk.N := Dvd.dvd.trans ⟨s, rfl⟩ hsN
  have hsy : ¬ (s : Int) ∣ y := by
    intro hd
    apply hsx
    have h4 : (s : Int) ∣ y ^ pk.N.toNat := dvd_pow hd (by omega)
    have h5 := (e1.of_dvd (⟨s, rfl⟩ : (s : Int) ∣ s * s)).dvd
    have := Int.dvd_add h5 h4
    rwa [sub_add_cancel] at this
  rw [← pow_mul, mul_comm pk.N.toNat, pow_mul]
  have h6 : y ^ (s - 1) ≡ 1 [ZMOD s] := fermat hs hsy (by rw [Nat.cast_sub hs.one_lt.le]; simp)
  exact modEq_one_pow h6 _ (by rw [Int.toNat_of_nonneg hN.le]; exact hsN')

/-- **C23** (finding) `Verify` panics instead of returning an error on a proof that is too short but
otherwise correct so far — e.g. the empty proof, for every challenge list and modulus not divisible
by the curve order. -/
theorem C23_short_proof_panics (pk : PublicKey) (q : Int) (hq : q ≠ 0) (hqN : ¬ q ∣ pk.N)
    (xs : List Int) (hlen : xs.length = 13) : psfVerify (.ok xs) q pk [] = .panic := by
  rw [Int.dvd_iff_emod_eq_zero] at hqN
  unfold psfVerify
  simp only [Big.mod, hq, if_false, Res.bind_ok, hqN, hlen, psfProofLength, ne_eq, not_true_eq_false]
  cases xs with
  | nil => cases hlen
  | cons x xs => rfl

theorem psfChallenge_range (fs : Nat → Nat → Nat → List UInt8) (N : Int) (b j fuel m : Nat) (x : Int)
    (h : psfChallenge fs N b j fuel m = some x) : 0 < x ∧ x < N := by
  induction fuel generalizing m with
  | zero => cases h
  | succ n ih =>
    unfold psfChallenge at h
    simp only at h
    split at h
    · rename_i hc
      rw [← Option.some.inj h]; exact hc
    · exact ih _ h

theorem mapM_option_spec {α β : Type} (f : α → Option β) (P : β → Prop) (h : ∀ a b, f a = some b → P b)
    (l : List α) (r : List β) (hr : l.mapM f = some r) : r.length = l.length ∧ ∀ b ∈ r, P b := by
  induction l generalizing r with
  | nil => simp at hr; subst hr; simp
  | cons a l ih =>
    rw [List.mapM_cons] at hr
    cases ha : f a with
    | none => simp [ha] at hr
    | some b =>
      cases hl : l.mapM f with
      | none => simp [ha, hl] at hr
      | some bs =>
        simp [ha, hl] at hr
        subst hr
        obtain ⟨h1, h2⟩ := ih bs hl
        refine ⟨by simp [h1], ?_⟩
        intro c hc
        rcases List.mem_cons.1 hc with rfl | hc
        · exact h _ _ ha
        · exact h2 c hc

/-- **C23** Whenever the challenge generator returns, for any hash function, it returns exactly 13
values, each in `(0,N)`, or an error for a modulus of fewer than 8 bits. -/
theorem C23_challenges (fs : Nat → Nat → Nat → List UInt8) (fuel : Nat) (N : Int)
    (r : Res (List Int)) (h : generateChallenges fs fuel N = some r) :
    (N.natAbs < 128 → r = .err) ∧
    (128 ≤ N.natAbs → ∃ xs, r = .ok xs ∧ xs.length = 13 ∧ ∀ x ∈ xs, 0 < x ∧ x < N) := by
  unfold generateChallenges at h
  have hsz : Nat.size N.natAbs < 8 ↔ N.natAbs < 128 := by
    have := @Nat.size_le N.natAbs 7
    norm_num at this
    omega
  simp only at h
  split at h
  · rename_i hb
    rw [hsz] at hb
    exact ⟨fun _ => (Option.some.inj h).symm, fun h' => by omega⟩
  · rename_i hb
    rw [hsz] at hb
    refine ⟨fun h' => absurd h' hb, fun _ => ?_⟩
    rw [Option.map_eq_some_iff] at h
    obtain ⟨xs, hxs, rfl⟩ := h
    refine ⟨xs, rfl, ?_⟩
    have := mapM_option_spec _ (fun x : Int => 0 < x ∧ x < N)
      (fun a b hab => psfChallenge_range fs N _ a fuel 0 b hab) _ _ hxs
    simpa [psfProofLength] using this

/-- **C23** end to end: prover and verifier that derive their challenges with the same hash from the
same curve, point and index agree, for every key built from good primes. -/
theorem C23_end_to_end (p q : Nat) (hp : p.Prime) (hq : q.Prime) (hne : p ≠ q)
    (hg : Int.gcd ((p : Int) * q) (((p : Int) - 1) * ((q : Int) - 1)) = 1) (order : Int)
    (ho : order ≠ 0) (hoN : ¬ order ∣ (p : Int) * q) (hbig : 128 ≤ p * q)
    (fs : Nat → Nat → Nat → List UInt8) (fuel : Nat) (r : Res (List Int))
    (hr : generateChallenges fs fuel ((p : Int) * q) = some r) :
    ∃ sk, newSecretKey p q = .ok sk ∧ ∃ pf, psfProve r sk = .ok pf ∧
      psfVerify r order sk.toPublicKey pf = .ok () := by
  obtain ⟨xs, rfl, h1, h2⟩ := (C23_challenges fs fuel _ r hr).2 (by
    have : ((p : Int) * q) = ((p * q : Nat) : Int) := by push_cast; ring
    rw [this, Int.natAbs_natCast]; exact hbig)
  exact C23_complete p q hp hq hne hg order ho hoN xs h1 fun x hx => ⟨(h2 x hx).1.le, (h2 x hx).2⟩

theorem setBytes_take_lt (l : List UInt8) (n : Nat) : Big.setBytes (l.take n) < 256 ^ n := by
  unfold Big.setBytes
  have h1 := Bytes.beToNat_lt (l.take n)
  have h2 : (l.take n).length ≤ n := by simp
  have h3 : 256 ^ (l.take n).length ≤ 256 ^ n := Nat.pow_le_pow_right (by norm_num) h2
  exact_mod_cast h1.trans_le h3

/-- **C23** (finding) the code comment says that `N` "should be part of the commitment", but it is not
hashed: for any two moduli with the same bit length `b ≥ 8`, `8 ∤ b`, the 13 challenges are
identical, so they do not bind the modulus. -/
theorem C23_challenges_ignore_modulus (fs : Nat → Nat → Nat → List UInt8) (fuel : Nat) (N N' : Int)
    (hN : 0 < N) (hN' : 0 < N') (hb : Nat.size N.natAbs = Nat.size N'.natAbs)
    (h8 : ¬ 8 ∣ Nat.size N.natAbs) :
    generateChallenges fs fuel N = generateChallenges fs fuel N' := by
  have aux : ∀ M : Int, 0 < M → ¬ 8 ∣ Nat.size M.natAbs →
      (256 : Int) ^ (Nat.size M.natAbs / 8) ≤ M := by
    intro M hM h
    set b := Nat.size M.natAbs with hbdef
    have hb0 : 0 < b := by
      rw [hbdef, Nat.size_pos]; omega
    have h1 : 2 ^ (b - 1) ≤ M.natAbs := by
      rw [← Nat.lt_size]; omega
    have h2 : 8 * (b / 8) ≤ b - 1 := by omega
    have h3 : (256 : Nat) ^ (b / 8) ≤ 2 ^ (b - 1) := by
      rw [show (256 : Nat) = 2 ^ 8 from rfl, ← pow_mul]
      exact Nat.pow_le_pow_right (by norm_num) h2
    have h4 : (256 : Nat) ^ (b / 8) ≤ M.natAbs := h3.trans h1
    have h5 : ((256 ^ (b / 8) : Nat) : Int) ≤ (M.natAbs : Int) := by exact_mod_cast h4
    push_cast at h5
    rwa [abs_of_pos hM] at h5
  have key : ∀ j m, psfChallenge fs N (Nat.size N.natAbs) j fuel m =
      psfChallenge fs N' (Nat.size N.natAbs) j fuel m := by
    intro j m
    have h1 := aux N hN h8
    have h2 := aux N' hN' (by rw [← hb]; exact h8)
    rw [← hb] at h2
    induction fuel generalizing m with
    | zero => rfl
    | succ n ih =>
      unfold psfChallenge
      simp only
      have h3 := setBytes_take_lt
        (psfBytes fs ((Nat.size N.natAbs + 256 - 1) / 256) j m) (Nat.size N.natAbs / 8)
      rw [ih]
      by_cases h0 : 0 < Big.setBytes ((psfBytes fs ((Nat.size N.natAbs + 256 - 1) / 256) j m).take
          (Nat.size N.natAbs / 8))
      · rw [if_pos ⟨h0, h3.trans_le h1⟩, if_pos ⟨h0, h3.trans_le h2⟩]
      · rw [if_neg (fun h => h0 h.1), if_neg (fun h => h0 h.1)]
  unfold generateChallenges
  simp only
  rw [← hb]
  split
  · rfl
  · simp only [key]

/-- a concrete run: `N = 11·23 = 253` is not coprime to its totient `220`, `N = 11·47 = 517` is. -/
example : GoodPrimes 11 47 ∧ 128 ≤ 11 * 47 ∧
    generateChallenges (fun j k m => [UInt8.ofNat (j + 1), UInt8.ofNat (k + m)]) 3 517
      = some (.ok [1, 2, 3, 4, 5, 6, 7, 8, 9, 10, 11, 12, 13]) := by
  refine ⟨⟨by norm_num, by norm_num, by norm_num, by decide +kernel⟩, by norm_num, by decide +kernel⟩

end Verif.Paillier
