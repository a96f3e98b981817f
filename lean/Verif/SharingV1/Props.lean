import Verif.SharingV1.Lemmas
import Mathlib.Tactic.NormNum.Prime

/-! # Properties C07–C09 (package `crypto/sharing/v1`) -/

namespace Verif.SharingV1
open Polynomial Finset Verif.Interp Verif.Bytes
open Verif.Sharing (polyInit evaluate commitEval polyOf evaluate_eq degree_polyOf_lt length_polyInit
  commitEval_poly commitEval_pedersen)

set_option linter.unusedSectionVars false

variable {p : Nat} [hp : Fact p.Prime]

theorem newShamir_eq_some {t n : Nat} {s : Shamir} (hn : n < 2 ^ 32)
    (h : newShamir (t : Int) (n : Int) = some s) : s = ⟨t, n⟩ ∧ 2 ≤ t ∧ t ≤ n := by
  unfold newShamir at h
  split at h <;> try contradiction
  split at h <;> try contradiction
  have := (Option.some.inj h).symm
  have h1 : ((t : Int) % 2 ^ 32).toNat = t := by omega
  have h2 : ((n : Int) % 2 ^ 32).toNat = n := by omega
  rw [h1, h2] at this
  exact ⟨this, by omega, by omega⟩

/-- What `Combine` does on any input whose first `threshold` identifiers are in range: it fails iff
two of these identifiers coincide, otherwise it returns the encoding of the value at 0 of every
polynomial of degree `< threshold` through the points.  Later shares are not looked at. -/
theorem C07_combine_spec {t n : Nat} {s : Shamir} (hn : n < 2 ^ 32) (hpn : n < p)
    (hs : newShamir (t : Int) (n : Int) = some s) (shares rest : List (Share p))
    (hlen : shares.length = t) (hid : ∀ r ∈ shares, 1 ≤ r.id ∧ r.id ≤ n) :
    combine s (shares ++ rest) = combine s shares ∧
    (¬ (shares.map Share.id).Nodup → combine s shares = .err) ∧
    ((shares.map Share.id).Nodup → ∀ f : (ZMod p)[X], f.degree < t →
      (∀ r ∈ shares, r.value = f.eval ((r.id : Nat) : ZMod p)) →
      combine s shares = .ok (natToBE (f.eval 0).val)) := by
  obtain ⟨rfl, h2, htn⟩ := newShamir_eq_some hn hs
  have hc := coords_ok ⟨t, n⟩ shares (fun r hr => ⟨(hid r hr).1, (hid r hr).2, by
    have := (hid r hr).2; omega⟩)
  have hlt : ∀ r ∈ shares, r.id < p := fun r hr => by have := (hid r hr).2; omega
  have htake : shares.take t = shares := by rw [← hlen]; exact List.take_length
  have hcomb : combine ⟨t, n⟩ shares
      = interpolate t (shares.map fun r => ((r.id : Nat) : ZMod p)) (shares.map Share.value)
        >>= fun v => .ok (natToBE v.val) := by
    unfold combine
    simp only
    rw [if_neg (by omega), htake, hc, Res.bind_ok]
    simp [List.map_map, Function.comp_def]
  refine ⟨?_, ?_, ?_⟩
  · unfold combine
    simp only
    rw [List.take_append_of_le_length (by omega), if_neg (by simp; omega), if_neg (by omega)]
  · intro hd
    rw [hcomb]
    have : ¬ (shares.map fun r => ((r.id : Nat) : ZMod p)).Nodup := by
      intro hh; apply hd
      have e : (shares.map fun r => ((r.id : Nat) : ZMod p))
        = (shares.map Share.id).map (fun n => ((n : Nat) : ZMod p)) := by rw [List.map_map]; rfl
      rw [e] at hh
      exact List.Nodup.of_map _ hh
    have e := interpolate_dup _ (shares.map Share.value) (by simp) this
    rw [List.length_map, hlen] at e
    rw [e]; rfl
  · intro hnd f hf hv
    have hxs := nodup_coords hlt hnd
    have e := interpolate_poly _ hxs f (by rw [List.length_map, hlen]; exact hf)
    rw [List.length_map, hlen, List.map_map] at e
    rw [hcomb]
    have e2 : shares.map Share.value
        = shares.map ((fun x => f.eval x) ∘ fun r => ((r.id : Nat) : ZMod p)) :=
      List.map_congr_left fun r hr => hv r hr
    rw [e2, e]; rfl

/-- **C07** round trip.  Every non-empty secret below the modulus is split into `n` shares with
identifiers `1..n`; any list whose first `t` entries are distinct dealt shares (whatever follows)
combines to the secret's minimal big-endian encoding. -/
theorem C07_split_combine {t n : Nat} {s : Shamir} (hn : n < 2 ^ 32) (hpn : n < p)
    (hs : newShamir (t : Int) (n : Int) = some s) (secret : List UInt8) (hne : secret ≠ [])
    (hlt : beToNat secret < p) (rnd : Nat → ZMod p) :
    ∃ shares, split s secret rnd = .ok shares ∧ shares.map Share.id = (List.range n).map (· + 1) ∧
      ∀ sub rest : List (Share p), sub ⊆ shares → sub.Nodup → sub.length = t →
        combine s (sub ++ rest) = .ok (natToBE (beToNat secret)) := by
  have hs' := hs
  obtain ⟨rfl, h2, htn⟩ := newShamir_eq_some hn hs
  set f := polyOf (polyInit ((beToNat secret : Nat) : ZMod p) t rnd) with hf
  refine ⟨(List.range n).map fun i => ⟨i + 1, evaluate (polyInit ((beToNat secret : Nat) : ZMod p) t rnd)
    ((i + 1 : Nat) : ZMod p)⟩, ?_, by simp [Function.comp_def], ?_⟩
  · unfold split getSharesAndPolynomial
    rw [if_neg hne, if_neg (by simpa using hlt)]
    simp only
    rw [if_neg (by omega)]
  · intro sub rest hsub hnd hlen
    have hmem : ∀ r ∈ sub, 1 ≤ r.id ∧ r.id ≤ n ∧ r.value = f.eval ((r.id : Nat) : ZMod p) := by
      intro r hr
      obtain ⟨i, hi, rfl⟩ := List.mem_map.1 (hsub hr)
      have := List.mem_range.1 hi
      exact ⟨by simp, by simp only; omega, by simp only [evaluate_eq, hf]⟩
    have hids : (sub.map Share.id).Nodup := by
      refine List.Nodup.map_on ?_ hnd
      intro a ha b hb hab
      have h1 := (hmem a ha).2.2
      have h2 := (hmem b hb).2.2
      rw [hab] at h1
      cases a; cases b; simp_all
    obtain ⟨a, -, c⟩ := C07_combine_spec hn hpn hs' sub rest hlen
      (fun r hr => ⟨(hmem r hr).1, (hmem r hr).2.1⟩)
    rw [a, c hids f ?_ (fun r hr => (hmem r hr).2.2)]
    · simp only [hf, polyInit, Verif.Sharing.polyOf_eval_zero]
      rw [ZMod.val_natCast, Nat.mod_eq_of_lt hlt]
    · have := degree_polyOf_lt (polyInit ((beToNat secret : Nat) : ZMod p) t rnd)
      rwa [length_polyInit _ _ _ (by omega)] at this

/-- **C07** (guards) exactly the empty and the too large secrets are refused. -/
theorem C07_split_err (s : Shamir) (hpn : s.limit < p) (secret : List UInt8) (rnd : Nat → ZMod p) :
    split s secret rnd = .err ↔ secret = [] ∨ p ≤ beToNat secret := by
  unfold split getSharesAndPolynomial
  by_cases h1 : secret = []
  · simp [h1]
  · by_cases h2 : beToNat secret < p
    · simp [h1, h2, Nat.not_le.2 hpn]
    · simp [h1, h2]; omega

/-- **C07** fewer than `threshold` shares, or an identifier outside `1..limit` among the first
`threshold`, is an error. -/
theorem C07_combine_err (s : Shamir) (hpn : s.limit < p) (shares : List (Share p))
    (h : shares.length < s.threshold ∨
      ∃ r ∈ shares.take s.threshold, r.id < 1 ∨ s.limit < r.id) :
    combine s shares = .err := by
  unfold combine
  split
  · rfl
  · rename_i hl
    rcases h with h | h
    · exact absurd h hl
    · have : coords s (shares.take s.threshold) = .err := by
        generalize shares.take s.threshold = l at h
        induction l with
        | nil => simp at h
        | cons r l ih =>
          unfold coords
          by_cases hr : r.id > s.limit ∨ r.id < 1
          · rw [if_pos hr]
          · rw [if_neg hr, if_neg (by omega)]
            obtain ⟨q, hq, hq'⟩ := h
            rcases List.mem_cons.1 hq with rfl | hq
            · omega
            · rw [ih ⟨q, hq, hq'⟩]; rfl
      rw [this]; rfl

/-- **C07** (finding) the byte string itself is not always recovered: leading zero bytes are lost. -/
theorem C07_leading_zeros_lost {t n : Nat} {s : Shamir} (hn : n < 2 ^ 32) (hpn : n < p)
    (hs : newShamir (t : Int) (n : Int) = some s) (secret : List UInt8)
    (hlt : beToNat secret < p) (rnd : Nat → ZMod p) (shares : List (Share p))
    (hsp : split s (0 :: secret) rnd = .ok shares) (sub : List (Share p)) (hsub : sub ⊆ shares)
    (hnd : sub.Nodup) (hlen : sub.length = t) : combine s sub ≠ .ok (0 :: secret) := by
  have hz : beToNat (0 :: secret) = beToNat secret := by rw [beToNat_cons]; simp
  obtain ⟨sh, h1, -, h3⟩ := C07_split_combine hn hpn hs (0 :: secret) (by simp) (by rw [hz]; exact hlt) rnd
  rw [hsp] at h1
  cases h1
  have := h3 sub [] hsub hnd hlen
  rw [List.append_nil, hz] at this
  rw [this]
  intro h
  have h' : natToBE (beToNat secret) = 0 :: secret := by simpa using h
  have l1 : (natToBE (beToNat secret)).length ≤ secret.length := by
    rw [natToBE]
    simp only [natToBEfix, List.length_reverse]
    have : ∀ a b, (natToLE a b).length = a := by
      intro a; induction a with
      | zero => intro b; rfl
      | succ a ih => intro b; simp [natToLE, ih]
    rw [this, byteLen_le_iff]
    exact beToNat_lt secret
  rw [h'] at l1
  simp at l1

/-! ## C08 -/

/-- **C08** Shares of two secrets, dealt by the same scheme, added share by share: any `t` of the sums
combine to the (reduced) sum of the secrets. -/
theorem C08_add_combine {t n : Nat} {s : Shamir} (hn : n < 2 ^ 32) (hpn : n < p)
    (hs : newShamir (t : Int) (n : Int) = some s) (sec1 sec2 : List UInt8) (rnd1 rnd2 : Nat → ZMod p)
    (sh1 sh2 : List (Share p)) (h1 : split s sec1 rnd1 = .ok sh1) (h2 : split s sec2 rnd2 = .ok sh2)
    (sums : List (Share p)) (hlen : sums.length = t) (hnd : (sums.map Share.id).Nodup)
    (hsum : ∀ r ∈ sums, ∃ a ∈ sh1, ∃ b ∈ sh2, a.id = b.id ∧ Share.add a b = .ok r) :
    combine s sums = .ok (natToBE ((beToNat sec1 + beToNat sec2) % p)) := by
  have hs' := hs
  obtain ⟨rfl, h2', htn⟩ := newShamir_eq_some hn hs
  have key : ∀ (sec : List UInt8) (rnd : Nat → ZMod p) (sh : List (Share p)),
      split ⟨t, n⟩ sec rnd = .ok sh → ∀ r ∈ sh, 1 ≤ r.id ∧ r.id ≤ n ∧
        r.value = (polyOf (polyInit ((beToNat sec : Nat) : ZMod p) t rnd)).eval ((r.id : Nat) : ZMod p) := by
    intro sec rnd sh h r hr
    unfold split getSharesAndPolynomial at h
    by_cases e1 : sec = []
    · simp [e1] at h
    · by_cases e2 : beToNat sec < p
      · simp only [e1, if_false, e2, not_true] at h
        rw [if_neg (by omega)] at h
        cases h
        obtain ⟨i, hi, rfl⟩ := List.mem_map.1 hr
        have := List.mem_range.1 hi
        exact ⟨by simp, by simp only; omega, by simp only [evaluate_eq]⟩
      · simp [e1, e2] at h
  set f1 := polyOf (polyInit ((beToNat sec1 : Nat) : ZMod p) t rnd1) with hf1
  set f2 := polyOf (polyInit ((beToNat sec2 : Nat) : ZMod p) t rnd2) with hf2
  have hmem : ∀ r ∈ sums, 1 ≤ r.id ∧ r.id ≤ n ∧ r.value = (f1 + f2).eval ((r.id : Nat) : ZMod p) := by
    intro r hr
    obtain ⟨a, ha, b, hb, hab, hadd⟩ := hsum r hr
    unfold Share.add at hadd
    rw [if_neg (by simpa using hab)] at hadd
    cases hadd
    obtain ⟨a1, a2, a3⟩ := key _ _ _ h1 a ha
    obtain ⟨b1, b2, b3⟩ := key _ _ _ h2 b hb
    refine ⟨a1, a2, ?_⟩
    simp only [eval_add]
    rw [a3, b3, hab]
  have hdeg : ∀ (x : ZMod p) (rnd : Nat → ZMod p), (polyOf (polyInit x t rnd)).degree < t := by
    intro x rnd
    have := degree_polyOf_lt (polyInit x t rnd)
    rwa [length_polyInit _ _ _ (by omega)] at this
  obtain ⟨-, -, c⟩ := C07_combine_spec hn hpn hs' sums [] hlen
    (fun r hr => ⟨(hmem r hr).1, (hmem r hr).2.1⟩)
  rw [c hnd (f1 + f2) (lt_of_le_of_lt (degree_add_le _ _) (max_lt (hdeg _ _) (hdeg _ _)))
    (fun r hr => (hmem r hr).2.2)]
  congr 2
  simp only [eval_add, hf1, hf2, polyInit, Verif.Sharing.polyOf_eval_zero]
  rw [← Nat.cast_add, ZMod.val_natCast]

/-- **C08** adding shares with different identifiers panics. -/
theorem C08_add_mismatch_panics (a b : Share p) (h : a.id ≠ b.id) : Share.add a b = .panic := by
  simp [Share.add, h]

/-! ## C09 -/

section Group
variable {G : Type*} [AddCommGroup G] [Module (ZMod p) G] [DecidableEq G]

theorem smul_cancel {g : G} (hg : g ≠ 0) {a b : ZMod p} (h : a • g = b • g) : a = b := by
  have h1 : (a - b) • g = 0 := by rw [sub_smul, h, sub_self]
  by_contra hne
  have h2 : (a - b)⁻¹ • (a - b) • g = 0 := by rw [h1, smul_zero]
  rw [smul_smul, inv_mul_cancel₀ (sub_ne_zero.2 hne), one_smul] at h2
  exact hg h2

/-- **C09** (Feldman) for every accepted dealing there is a polynomial of degree `< t` with the secret
as constant term on which all dealt shares lie, and `Verify` returns true on an arbitrary share iff it
lies on that polynomial; with fewer than `t` verifiers it is an error. -/
theorem C09_feldman_verify_iff (g : G) (hg : g ≠ 0) {t n : Nat} {s : Shamir} (hn : n < 2 ^ 32)
    (hpn : n < p) (hs : newShamir (t : Int) (n : Int) = some s) (secret : List UInt8)
    (rnd : Nat → ZMod p) (ver : List G) (shares : List (Share p))
    (hsp : feldmanSplit g s secret rnd = .ok (ver, shares)) :
    ∃ f : (ZMod p)[X], f.degree < t ∧ f.eval 0 = ((beToNat secret : Nat) : ZMod p) ∧
      ver.length = t ∧ shares.length = n ∧
      (∀ r ∈ shares, r.value = f.eval ((r.id : Nat) : ZMod p) ∧
        feldmanVerify g s r ver = .ok true) ∧
      (∀ r : Share p, r.id < p →
        ∃ b, feldmanVerify g s r ver = .ok b ∧ (b = true ↔ r.value = f.eval ((r.id : Nat) : ZMod p))) ∧
      (∀ (r : Share p) (v : List G), v.length < t → feldmanVerify g s r v = .err) := by
  obtain ⟨rfl, h2, htn⟩ := newShamir_eq_some hn hs
  unfold feldmanSplit getSharesAndPolynomial at hsp
  by_cases e1 : secret = []
  · simp [e1] at hsp
  by_cases e2 : beToNat secret < p
  swap
  · simp [e1, e2] at hsp
  simp only [e1, if_false, e2, not_true] at hsp
  rw [if_neg (by omega)] at hsp
  simp only [Res.ok.injEq, Prod.mk.injEq] at hsp
  obtain ⟨rfl, rfl⟩ := hsp
  have hl : ((polyInit ((beToNat secret : Nat) : ZMod p) t rnd).map (· • g)).length = t := by
    rw [List.length_map, length_polyInit _ _ _ (by omega)]
  have hver : ∀ r : Share p, r.id < p → feldmanVerify g ⟨t, n⟩ r
      ((polyInit ((beToNat secret : Nat) : ZMod p) t rnd).map (· • g)) = .ok (decide (r.value • g =
      (polyOf (polyInit ((beToNat secret : Nat) : ZMod p) t rnd)).eval ((r.id : Nat) : ZMod p) • g)) := by
    intro r hr
    unfold feldmanVerify
    rw [if_neg (by rw [hl]; simp), if_neg (by omega), commitEval_poly]
  refine ⟨polyOf (polyInit ((beToNat secret : Nat) : ZMod p) t rnd), ?_, by simp [polyInit], hl,
    by simp, ?_, ?_, ?_⟩
  · have := degree_polyOf_lt (polyInit ((beToNat secret : Nat) : ZMod p) t rnd)
    rwa [length_polyInit _ _ _ (by omega)] at this
  · intro r hr
    obtain ⟨i, hi, rfl⟩ := List.mem_map.1 hr
    have := List.mem_range.1 hi
    refine ⟨by simp only [evaluate_eq], ?_⟩
    rw [hver _ (by simp only; omega)]
    simp only [evaluate_eq, decide_true]
  · intro r hr
    refine ⟨_, hver r hr, ?_⟩
    rw [decide_eq_true_eq]
    exact ⟨fun h => smul_cancel hg h, fun h => by rw [h]⟩
  · intro r v hv
    unfold feldmanVerify
    rw [if_pos hv]

/-- **C09** (the Feldman half of a Pedersen result) whenever `Pedersen.Split` succeeds, its secret shares
and plain verifiers are what `Feldman.Split` returns with the same randomness, and its blinding shares are
a Shamir sharing of the returned blinding. -/
theorem C09_pedersen_feldman (g h : G) (s : Shamir) (secret : List UInt8) (blinding : ZMod p)
    (rnd rndB : Nat → ZMod p) (r : PedersenResult p G)
    (hr : pedersenSplit g h s secret blinding rnd rndB = .ok r) :
    r.blinding = blinding ∧
    feldmanSplit g s secret rnd = .ok (r.verifiers, r.secretShares) ∧
    split s (natToBE blinding.val) rndB = .ok r.blindingShares := by
  unfold pedersenSplit at hr
  cases h1 : getSharesAndPolynomial s secret rnd with
  | err => rw [h1] at hr; cases hr
  | panic => rw [h1] at hr; cases hr
  | ok sp =>
    cases h2 : getSharesAndPolynomial s (natToBE blinding.val) rndB with
    | err => rw [h1, h2] at hr; cases hr
    | panic => rw [h1, h2] at hr; cases hr
    | ok bp =>
      rw [h1, h2] at hr
      cases hr
      simp [feldmanSplit, split, h1, h2]

/-- **C09** (Pedersen) honest pairs are accepted; a zero blinding makes `Split` fail; too few verifiers
are an error; acceptance of two pairs with different secret parts reveals the discrete log of `h`. -/
theorem C09_pedersen (g h : G) (hg : g ≠ 0) {t n : Nat} {s : Shamir} (hn : n < 2 ^ 32) (hpn : n < p)
    (hs : newShamir (t : Int) (n : Int) = some s) (secret : List UInt8) (blinding : ZMod p)
    (rnd rndB : Nat → ZMod p) :
    (blinding = 0 → ∀ r, pedersenSplit g h s secret blinding rnd rndB ≠ .ok r) ∧
    (blinding ≠ 0 → secret ≠ [] → beToNat secret < p →
      ∃ r, pedersenSplit g h s secret blinding rnd rndB = .ok r ∧ r.secretShares.length = n ∧
        r.blindingShares.length = n ∧
        ∀ (i : Nat) (sh bl : Share p), r.secretShares[i]? = some sh → r.blindingShares[i]? = some bl →
          sh.id = bl.id ∧ pedersenVerify g h s sh bl r.blindedVerifiers = .ok true) ∧
    (∀ (sh bl : Share p) (v : List G), v.length < t → pedersenVerify g h s sh bl v = .err) ∧
    (∀ (sh bl sh' bl' : Share p) (v : List G), sh.id = sh'.id →
      pedersenVerify g h s sh bl v = .ok true → pedersenVerify g h s sh' bl' v = .ok true →
      sh.value ≠ sh'.value →
      bl'.value ≠ bl.value ∧ h = ((sh.value - sh'.value) / (bl'.value - bl.value)) • g) := by
  obtain ⟨rfl, h2, htn⟩ := newShamir_eq_some hn hs
  refine ⟨?_, ?_, ?_, ?_⟩
  · rintro rfl r hr
    have hb : getSharesAndPolynomial (p := p) ⟨t, n⟩ (natToBE (0 : ZMod p).val) rndB = .err := by
      simp [getSharesAndPolynomial]
    unfold pedersenSplit at hr
    rw [hb] at hr
    cases hq : getSharesAndPolynomial ⟨t, n⟩ secret rnd <;> rw [hq] at hr <;> cases hr
  · intro hb hne hlt
    have hbl : beToNat (natToBE blinding.val) < p := by
      rw [beToNat_natToBE]; exact ZMod.val_lt _
    have hb0 : natToBE blinding.val ≠ [] := by
      rw [Ne, natToBE_eq_nil, ZMod.val_eq_zero]; exact hb
    have hgs : ∀ (sec : List UInt8) (rnd : Nat → ZMod p), sec ≠ [] → beToNat sec < p →
        getSharesAndPolynomial ⟨t, n⟩ sec rnd = .ok ((List.range n).map fun i => ⟨i + 1,
          evaluate (polyInit ((beToNat sec : Nat) : ZMod p) t rnd) ((i + 1 : Nat) : ZMod p)⟩,
          polyInit ((beToNat sec : Nat) : ZMod p) t rnd) := by
      intro sec rnd h1 h3
      unfold getSharesAndPolynomial
      simp only [h1, if_false, h3, not_true]
      rw [if_neg (by omega)]
    unfold pedersenSplit
    rw [hgs _ _ hne hlt, hgs _ _ hb0 hbl]
    simp only [Res.bind]
    refine ⟨_, rfl, by simp, by simp, ?_⟩
    intro i sh bl h1 h3
    simp only [List.getElem?_map] at h1 h3
    by_cases hi : i < n
    · rw [List.getElem?_range hi] at h1 h3
      simp only [Option.map_some, Option.some.injEq] at h1 h3
      subst h1; subst h3
      refine ⟨rfl, ?_⟩
      unfold pedersenVerify
      rw [if_neg (by simp [polyInit]; omega), if_neg (by simp only; omega)]
      rw [commitEval_pedersen _ _ _ (by simp [polyInit])]
      simp only [evaluate_eq, decide_true]
    · have : (List.range n)[i]? = none := by simp; omega
      rw [this] at h1; simp at h1
  · intro sh bl v hv
    unfold pedersenVerify
    rw [if_pos hv]
  · intro sh bl sh' bl' v hid e1 e2 hne
    have key : ∀ a b : Share p, pedersenVerify g h ⟨t, n⟩ a b v = .ok true →
        a.value • g + b.value • h = commitEval ((a.id : Nat) : ZMod p) v := by
      intro a b hab
      unfold pedersenVerify at hab
      split at hab
      · cases hab
      · split at hab
        · cases hab
        · simpa using hab
    have e3 := key _ _ e1
    rw [hid, ← key _ _ e2] at e3
    have hlin : (sh.value - sh'.value) • g = (bl'.value - bl.value) • h := by
      rw [sub_smul, sub_smul, sub_eq_sub_iff_add_eq_add, e3]; abel
    have hbb : bl'.value ≠ bl.value := by
      intro hh
      rw [hh, sub_self, zero_smul] at hlin
      have : (sh.value - sh'.value) • g = (0 : ZMod p) • g := by rw [hlin, zero_smul]
      exact hne (sub_eq_zero.1 (smul_cancel hg this))
    refine ⟨hbb, ?_⟩
    rw [div_eq_inv_mul, ← smul_smul, hlin, smul_smul, inv_mul_cancel₀ (sub_ne_zero.2 hbb), one_smul]

end Group

/-! ## Non-vacuity (field of 257 elements) -/

local instance fact257 : Fact (Nat.Prime 257) := ⟨by norm_num⟩

instance (p : Nat) : DecidableEq (Share p) := fun a b => by
  cases a with | mk i v => cases b with | mk j w =>
  exact decidable_of_iff (i = j ∧ v = w) (by simp)

example : newShamir 2 3 = some ⟨2, 3⟩ := by decide
example : split (p := 257) ⟨2, 3⟩ [0, 7] (fun _ => 100) = .ok [⟨1, 107⟩, ⟨2, 207⟩, ⟨3, 50⟩] := by
  decide +kernel
example : combine (p := 257) ⟨2, 3⟩ [⟨3, 50⟩, ⟨1, 107⟩, ⟨9, 9⟩] = .ok [7] := by decide +kernel
example : combine (p := 257) ⟨2, 3⟩ [⟨3, 50⟩, ⟨3, 50⟩, ⟨1, 107⟩] = .err := by decide +kernel
example : (feldmanSplit (p := 257) (G := ZMod 257) 1 ⟨2, 3⟩ [7] (fun _ => 100))
    = .ok ([7, 100], [⟨1, 107⟩, ⟨2, 207⟩, ⟨3, 50⟩]) := by decide +kernel
example : feldmanVerify (p := 257) (G := ZMod 257) 1 ⟨2, 3⟩ ⟨1, 107⟩ [7, 100] = .ok true ∧
    feldmanVerify (p := 257) (G := ZMod 257) 1 ⟨2, 3⟩ ⟨1, 108⟩ [7, 100] = .ok false := by decide +kernel

end Verif.SharingV1
