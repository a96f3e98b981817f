import Verif.Bbs.Lemmas

/-! C76 (BBS+ signatures: completeness, the exact acceptance condition, and the universal forgery that equal
generators permit) and C77 (message generators). -/

set_option linter.unusedSectionVars false

namespace Verif.Bbs

open Verif
open Verif.OT (Ev Transcript idx)
open Verif.Bulletproof (msm)

variable {F G1 G2 GT : Type} [Field F] [DecidableEq F] [AddCommGroup G1] [Module F G1] [DecidableEq G1]
  [AddCommGroup G2] [Module F G2] [DecidableEq G2] [CommGroup GT] [DecidableEq GT]

/-! ### C77: message generators -/

/-- **C77** `Init` refuses exactly the negative lengths; otherwise it stores the length and hashes, to the
blinding generator, the public key padded or cut to 192 bytes, five zero bytes and the length modulo `2³²` in
four big-endian bytes. -/
theorem C77_init (V : Env F G1 G2) (w : G2) (n : Int) :
    (Generators.init V w n = .err ↔ n < 0) ∧
    ∀ g, Generators.init V w n = .ok g →
      (g.length : Int) = n ∧ g.state.length = 201 ∧
      g.state = (V.unc2 w ++ List.replicate 192 0).take 192 ++ List.replicate 5 0 ++
        Bytes.natToBEfix 4 (n.toNat % 2 ^ 32) ∧
      g.h0 = V.hash1 g.state := by
  constructor
  · rw [init_eq]
    split <;> simp_all
  · intro g h
    obtain ⟨h0, h1, h2, h3⟩ := init_ok h
    refine ⟨h1, ?_, ?_, by rw [h3, h2]⟩
    · rw [h2]
      unfold genBytes
      rw [List.length_append, List.length_append, List.length_take, List.length_append, List.length_replicate,
        List.length_replicate]
      simp only [List.length_cons, List.length_nil]
      omega
    · rw [h2]
      unfold genBytes
      congr 1
      apply Bytes.beToNat_inj
      · simp
      rw [Bytes.beToNat_natToBEfix]
      have hb : ∀ k, (byteAt n.toNat k).toNat = n.toNat / 2 ^ k % 256 := fun k => by
        unfold byteAt
        rw [Nat.shiftRight_eq_div_pow]
        simp
      simp only [Bytes.beToNat, List.foldl_cons, List.foldl_nil, hb]
      omega

/-- **C77 (negation)** `Get` ignores its index: every index up to the length, negative ones included, gives
the *same* point, the blinding generator.  Indices beyond the length give nil. -/
theorem C77_get_constant {V : Env F G1 G2} {w : G2} {n : Int} {g : Generators G1}
    (h : Generators.init V w n = .ok g) (i : Int) :
    g.get V i = if i ≤ n then some g.h0 else none := get_eq h i

/-- The generators of the same key and count are the same for every object: two parties that call `Init` with
the same arguments agree on them. -/
theorem C77_deterministic {V : Env F G1 G2} {w : G2} {n : Int} {g g' : Generators G1}
    (h : Generators.init V w n = .ok g) (h' : Generators.init V w n = .ok g') (i : Int) :
    g.get V i = g'.get V i := by
  rw [h] at h'
  injection h' with h'
  rw [h']

/-! ### C76: signatures -/

/-- **C76** The exact acceptance condition: between one and `length` messages, neither the key nor `A` the
identity, and `e(A, e·g₂ + w) = e(g₁ + s·h₀ + Σ mᵢ·hᵢ, g₂)`, where `hᵢ` is what `Get(i)` returns. -/
theorem C76_verify_exact {V : Env F G1 G2} (E : Pairing F G1 G2 GT) {g : Generators G1} {H : Nat → G1}
    (hH : ∀ i : Nat, i ≤ g.length → g.get V i = some (H i)) (pk : G2) (sig : Signature F G1) (msgs : List F) :
    verify V E pk sig g msgs = .ok () ↔
      1 ≤ msgs.length ∧ msgs.length ≤ g.length ∧ pk ≠ 0 ∧ sig.a ≠ 0 ∧
      E.e sig.a (sig.e • E.g2 + pk) =
        E.e (E.g1 + sig.s • H 0 +
          (List.zipWith (fun i m => m • H (i + 1)) (List.range msgs.length) msgs).sum) E.g2 := by
  unfold verify
  by_cases h1 : g.length < msgs.length
  · rw [if_pos h1]
    constructor
    · exact nofun
    · rintro ⟨_, h, _⟩
      omega
  rw [if_neg h1]
  by_cases h2 : msgs.length < 1
  · rw [if_pos h2]
    constructor
    · exact nofun
    · rintro ⟨h, _⟩
      omega
  rw [if_neg h2]
  by_cases h3 : pk = 0
  · rw [if_pos h3]
    constructor
    · exact nofun
    · rintro ⟨_, _, h, _⟩
      exact absurd h3 h
  rw [if_neg h3]
  by_cases h4 : sig.a = 0
  · rw [if_pos h4]
    constructor
    · exact nofun
    · rintro ⟨_, _, _, h, _⟩
      exact absurd h4 h
  rw [if_neg h4, computeB_eq E hH sig.s (by omega) (by omega), Res.bind_ok]
  have e : (List.zipWith (fun i m => m • H (i + 1)) (List.range msgs.length) msgs).sum = msgPoint H msgs := rfl
  rw [e]
  constructor
  · intro h
    split at h
    · rename_i h5
      rw [E.neg_left, mul_inv_eq_one] at h5
      exact ⟨by omega, by omega, h3, h4, h5⟩
    · exact nomatch h
  · rintro ⟨_, _, _, _, h⟩
    rw [if_pos (by rw [E.neg_left, mul_inv_eq_one]; exact h)]

/-- For a key `w = x·g₂` the pairing equation says `(e + x)·A = g₁ + (s + Σ mᵢ)·h₀`: only the sum of the
messages matters. -/
theorem verify_iff {V : Env F G1 G2} (E : Pairing F G1 G2 GT) {w : G2} {n : Int} {g : Generators G1}
    (h : Generators.init V w n = .ok g) (pk : G2) (sig : Signature F G1) (msgs : List F) :
    verify V E pk sig g msgs = .ok () ↔
      1 ≤ msgs.length ∧ (msgs.length : Int) ≤ n ∧ pk ≠ 0 ∧ sig.a ≠ 0 ∧
      E.e sig.a (sig.e • E.g2 + pk) = E.e (E.g1 + (sig.s + msgs.sum) • g.h0) E.g2 := by
  have hl := (init_ok h).2.1
  have hH : ∀ i : Nat, i ≤ g.length → g.get V i = some ((fun _ => g.h0) i) := fun i hi => by
    rw [get_eq h, if_pos (by omega)]
  rw [C76_verify_exact E hH]
  constructor
  · rintro ⟨h1, h2, h3, h4, h5⟩
    refine ⟨h1, by omega, h3, h4, ?_⟩
    rw [h5]
    have := msgPoint_const (g := g) (P := g.h0) (H := fun _ => g.h0) (msgs := msgs) (fun _ _ => rfl) h2
    unfold msgPoint at this
    rw [this, add_smul, add_assoc]
  · rintro ⟨h1, h2, h3, h4, h5⟩
    refine ⟨h1, by omega, h3, h4, ?_⟩
    rw [h5]
    have := msgPoint_const (g := g) (P := g.h0) (H := fun _ => g.h0) (msgs := msgs) (fun _ _ => rfl) (by omega)
    unfold msgPoint at this
    rw [this, add_smul, add_assoc]

theorem pair_key (E : Pairing F G1 G2 GT) (A B : G1) (e x : F) :
    E.e A (e • E.g2 + x • E.g2) = E.e B E.g2 ↔ (e + x) • A = B := by
  rw [← add_smul, ← E.smul_swap, E.e_g2_inj]

/-- **C76** what an accepted signature under the public key of `x` is: `(e + x)·A = g₁ + (s + Σ mᵢ)·h₀`. -/
theorem C76_accepted_equation {V : Env F G1 G2} (E : Pairing F G1 G2 GT) {w : G2} {n : Int} {g : Generators G1}
    (h : Generators.init V w n = .ok g) (x : F) (hx : publicKey E x ≠ 0) (sig : Signature F G1) (msgs : List F) :
    verify V E (publicKey E x) sig g msgs = .ok () ↔
      1 ≤ msgs.length ∧ (msgs.length : Int) ≤ n ∧ sig.a ≠ 0 ∧
      (sig.e + x) • sig.a = E.g1 + (sig.s + msgs.sum) • g.h0 := by
  rw [verify_iff E h]
  unfold publicKey at *
  rw [pair_key]
  tauto

/-- **C76** `Verify` never panics: on generators made by `Init` it either accepts or returns an error. -/
theorem C76_verify_total {V : Env F G1 G2} (E : Pairing F G1 G2 GT) {w : G2} {n : Int} {g : Generators G1}
    (h : Generators.init V w n = .ok g) (pk : G2) (sig : Signature F G1) (msgs : List F) :
    verify V E pk sig g msgs ≠ .panic := by
  unfold verify
  split
  · exact nofun
  split
  · exact nofun
  split
  · exact nofun
  split
  · exact nofun
  rw [computeB_init E h _ (by omega) (by omega), Res.bind_ok]
  split <;> exact nofun

theorem g2_ne (E : Pairing F G1 G2 GT) {A : G1} (hA : A ≠ 0) : E.g2 ≠ 0 := by
  intro h0
  apply hA
  apply E.nondeg2
  rw [h0, E.zero_right]

/-- **C76** the outcome of `Sign`: when there are between one and `length` messages, the secret key is not zero
and `e`, `s` are the first two non-zero scalars of SHAKE256 over the secret key, the generators and the
messages, the signature is `((e + x)⁻¹·(g₁ + s·h₀ + Σ mᵢ·hᵢ), e, s)`, and the only error left is `e + x = 0`. -/
theorem C76_sign_value {V : Env F G1 G2} (E : Pairing F G1 G2 GT) {w : G2} {n : Int} {g : Generators G1}
    (h : Generators.init V w n = .ok g) {H : Nat → G1} (hH : ∀ i : Nat, i ≤ g.length → g.get V i = some (H i))
    (sk : F) (msgs : List F) (h1 : 1 ≤ msgs.length) (h2 : (msgs.length : Int) ≤ n) (hsk : sk ≠ 0)
    {e s : F} {r r' : List F}
    (he : getNonZero (V.shake (V.bytes sk ++
      ((List.range (g.length + 1)).map H).flatMap V.unc1 ++ msgs.flatMap V.bytes)) = .ok (e, r))
    (hs : getNonZero r = .ok (s, r')) :
    sign V E sk g msgs = if e + sk = 0 then .err else
      .ok { a := (e + sk)⁻¹ • (E.g1 + s • H 0 +
              (List.zipWith (fun i m => m • H (i + 1)) (List.range msgs.length) msgs).sum),
            e := e, s := s } := by
  have hl := (init_ok h).2.1
  have hc : ∀ i : Nat, i ≤ g.length → H i = g.h0 := fun i hi => by
    have := hH i hi
    rw [get_eq h, if_pos (by omega)] at this
    injection this with this
    exact this.symm
  have hr : (List.range (g.length + 1)).map H = List.replicate (g.length + 1) g.h0 := by
    rw [List.eq_replicate_iff]
    refine ⟨by simp, ?_⟩
    intro b hb
    rw [List.mem_map] at hb
    obtain ⟨i, hi, rfl⟩ := hb
    rw [List.mem_range] at hi
    exact hc i (by omega)
  unfold sign
  rw [if_neg (by omega), if_neg (by omega), if_neg hsk, nonceData_ok h, Res.bind_ok]
  rw [hr, List.append_assoc] at he
  rw [he, Res.bind_ok]
  simp only []
  rw [hs, Res.bind_ok]
  simp only []
  rw [computeB_eq E hH s h1 (by omega), Res.bind_ok]
  unfold invert
  split
  · rfl
  · rfl

/-- **C76** what `Sign` refuses. -/
theorem C76_sign_refuses (V : Env F G1 G2) (E : Pairing F G1 G2 GT) (g : Generators G1) (sk : F) (msgs : List F)
    (h : msgs = [] ∨ g.length < msgs.length ∨ sk = 0) : sign V E sk g msgs = .err := by
  unfold sign
  split
  · rfl
  split
  · rfl
  split
  · rfl
  rename_i h1 h2 h3
  rcases h with rfl | h | h
  · simp at h2
  · exact absurd h h1
  · exact absurd h h3

/-- **C76** Completeness: whatever `Sign` returns verifies under the signer's public key, unless its point is
the identity (which needs `g₁ + s·h₀ + Σ mᵢ·hᵢ = 0`). -/
theorem C76_sign_verify {V : Env F G1 G2} (E : Pairing F G1 G2 GT) {w : G2} {n : Int} {g : Generators G1}
    (h : Generators.init V w n = .ok g) (sk : F) (msgs : List F) {sig : Signature F G1}
    (hs : sign V E sk g msgs = .ok sig) (hA : sig.a ≠ 0) :
    verify V E (publicKey E sk) sig g msgs = .ok () := by
  have hl := (init_ok h).2.1
  unfold sign at hs
  split at hs
  · exact nomatch hs
  split at hs
  · exact nomatch hs
  split at hs
  · exact nomatch hs
  rename_i h1 h2 hsk
  rw [nonceData_ok h, Res.bind_ok, Res.bind_eq_ok] at hs
  obtain ⟨⟨e, r⟩, he, hs⟩ := hs
  simp only [] at hs
  rw [Res.bind_eq_ok] at hs
  obtain ⟨⟨s, r'⟩, hs', hs⟩ := hs
  simp only [] at hs
  rw [computeB_init E h s (by omega) (by omega), Res.bind_ok] at hs
  unfold invert at hs
  split at hs
  · exact nomatch hs
  rename_i hne
  rw [Res.bind_ok] at hs
  injection hs with hs
  subst hs
  rw [C76_accepted_equation E h sk]
  · refine ⟨by omega, by omega, hA, ?_⟩
    show (e + sk) • (e + sk)⁻¹ • _ = _
    rw [smul_smul, mul_inv_cancel₀ hne, one_smul]
  · exact smul_ne_zero hsk (g2_ne E hA)

/-- **C76 (negation: universal forgery)** Because every generator is the same point, an accepted signature
`(A, e, s)` on any messages gives, without the secret key, the accepted signature
`(A, e, s + Σ mᵢ − Σ m'ⱼ)` on *any* other messages, in any number up to `length`. -/
theorem C76_forgery {V : Env F G1 G2} (E : Pairing F G1 G2 GT) {w : G2} {n : Int} {g : Generators G1}
    (h : Generators.init V w n = .ok g) (pk : G2) (sig : Signature F G1) (msgs msgs' : List F)
    (hv : verify V E pk sig g msgs = .ok ()) (h1 : 1 ≤ msgs'.length) (h2 : (msgs'.length : Int) ≤ n) :
    verify V E pk { sig with s := sig.s + msgs.sum - msgs'.sum } g msgs' = .ok () := by
  rw [verify_iff E h] at hv ⊢
  obtain ⟨_, _, h3, h4, h5⟩ := hv
  refine ⟨h1, h2, h3, h4, ?_⟩
  show _ = E.e (E.g1 + (sig.s + msgs.sum - msgs'.sum + msgs'.sum) • g.h0) E.g2
  rw [sub_add_cancel]
  exact h5

/-- **C76 (negation)** a signature on some messages is a signature on every reordering of them, and on every
list of messages with the same sum. -/
theorem C76_same_sum {V : Env F G1 G2} (E : Pairing F G1 G2 GT) {w : G2} {n : Int} {g : Generators G1}
    (h : Generators.init V w n = .ok g) (pk : G2) (sig : Signature F G1) (msgs msgs' : List F)
    (hv : verify V E pk sig g msgs = .ok ()) (h1 : 1 ≤ msgs'.length) (h2 : (msgs'.length : Int) ≤ n)
    (hsum : msgs'.sum = msgs.sum) : verify V E pk sig g msgs' = .ok () := by
  have := C76_forgery E h pk sig msgs msgs' hv h1 h2
  rw [hsum, add_sub_cancel_right] at this
  exact this

/-- The signature determines the sum of the messages: for one `(A, e, s)`, all accepted message lists have the
same sum (when the blinding generator is not the identity). -/
theorem C76_sum_binding {V : Env F G1 G2} (E : Pairing F G1 G2 GT) {w : G2} {n : Int} {g : Generators G1}
    (h : Generators.init V w n = .ok g) (h0 : g.h0 ≠ 0) (pk : G2) (sig : Signature F G1) (msgs msgs' : List F)
    (hv : verify V E pk sig g msgs = .ok ()) (hv' : verify V E pk sig g msgs' = .ok ()) :
    msgs.sum = msgs'.sum := by
  rw [verify_iff E h] at hv hv'
  have e := hv.2.2.2.2.symm.trans hv'.2.2.2.2
  rw [E.e_g2_inj] at e
  have e' := add_left_cancel e
  rw [← sub_eq_zero, ← sub_smul, smul_eq_zero] at e'
  rcases e' with e' | e'
  · linear_combination e'
  · exact absurd e' h0

end Verif.Bbs
