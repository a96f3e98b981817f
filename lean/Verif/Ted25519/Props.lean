import Verif.Ted25519.Model
import Verif.SharingV1.Props
import Verif.Sharing.Props
import Verif.Base.Tactics

/-! Properties C18, C19 of the dealer-based threshold Ed25519 package. -/

set_option linter.unusedSectionVars false

namespace Verif.Ted25519

open Verif.SharingV1 Verif.Bytes Polynomial
open Verif.Sharing (polyInit evaluate polyOf evaluate_eq degree_polyOf_lt length_polyInit)

variable {p : Nat} [Fact p.Prime] {G : Type*} [AddCommGroup G] [Module (ZMod p) G] [DecidableEq G]

theorem leToNat_append_zeros (b : List UInt8) (n : Nat) :
    leToNat (b ++ List.replicate n 0) = leToNat b := by
  induction b with
  | nil =>
    induction n with
    | zero => rfl
    | succ n ih => simpa [List.replicate_succ, leToNat] using ih
  | cons x b ih => simp [leToNat, ih]

theorem pad32_spec (b : List UInt8) (h : b.length ≤ 32) :
    (pad32 b).length = 32 ∧ leToNat (pad32 b) = leToNat b := by
  unfold pad32
  rw [List.take_of_length_le h]
  exact ⟨by simp; omega, leToNat_append_zeros _ _⟩

theorem p_lt (hp : p ≤ 2 ^ 253) : p ≤ 256 ^ 32 := le_trans hp (by norm_num)

theorem natToBE_len (hp : p ≤ 256 ^ 32) (x : ZMod p) : (natToBE x.val).length ≤ 32 := by
  rw [length_natToBE, byteLen_le_iff]
  exact lt_of_lt_of_le (ZMod.val_lt x) hp

theorem canonical_rev (hp : p ≤ 256 ^ 32) (x : ZMod p) :
    canonical (p := p) (pad32 (natToBE x.val).reverse) = some x := by
  obtain ⟨h1, h2⟩ := pad32_spec (natToBE x.val).reverse (by simpa using natToBE_len hp x)
  unfold canonical
  rw [h1, h2, leToNat_reverse, beToNat_natToBE, if_pos ⟨rfl, ZMod.val_lt x⟩]
  simp

theorem pad32_rev (hp : p ≤ 256 ^ 32) (x : ZMod p) :
    pad32 (natToBE x.val).reverse = natToLE 32 x.val := by
  obtain ⟨h1, h2⟩ := pad32_spec (natToBE x.val).reverse (by simpa using natToBE_len hp x)
  refine leToNat_inj (by rw [h1]; simp) ?_
  rw [h2, leToNat_reverse, beToNat_natToBE, leToNat_natToLE, Nat.mod_eq_of_lt]
  exact lt_of_lt_of_le (ZMod.val_lt x) hp

theorem natToLE_val (hp : p ≤ 256 ^ 32) (x : ZMod p) : leToNat (natToLE 32 x.val) = x.val := by
  rw [leToNat_natToLE, Nat.mod_eq_of_lt]
  exact lt_of_lt_of_le (ZMod.val_lt x) hp

theorem coeffPoint_eq (P : Params p G) (hp : p ≤ 256 ^ 32) (c : ZMod p) :
    coeffPoint P c = some (c • P.g) := by
  unfold coeffPoint
  rw [canonical_rev hp]; rfl

theorem coeff_polyOf (L : List (ZMod p)) (j : Nat) : (polyOf L).coeff j = L.getD j 0 := by
  induction L generalizing j with
  | nil => simp [polyOf]
  | cons a L ih =>
    cases j with
    | zero => simp [polyOf]
    | succ j => simp [polyOf, ih]

/-! ## Dealing -/

/-- **C18** (dealing) for every admissible configuration and non-empty secret below the order, `split`
returns `N` shares with identifiers `1..N` lying on one polynomial of degree `< T` whose constant term is
the secret, and the commitments to its coefficients; `Reconstruct` of any `T` distinct ones gives the
secret back. -/
theorem C18_deal (P : Params p G) (hp : p ≤ 2 ^ 253) {t n : Nat} (ht : 2 ≤ t) (htn : t ≤ n)
    (hn : n < 2 ^ 32) (hpn : n < p) (secret : List UInt8) (hne : secret ≠ []) (hlt : beToNat secret < p)
    (rnd : Nat → ZMod p) :
    ∃ (f : (ZMod p)[X]) (comm : List G) (shares : List (Share p)),
      splitKey P t n secret rnd = .ok (comm, shares) ∧
      f.degree < t ∧ f.eval 0 = ((beToNat secret : Nat) : ZMod p) ∧
      comm = (List.range t).map (fun j => f.coeff j • P.g) ∧
      shares = (List.range n).map (fun i => ⟨i + 1, f.eval ((i + 1 : Nat) : ZMod p)⟩) ∧
      ∀ sub rest : List (Share p), sub ⊆ shares → sub.Nodup → sub.length = t →
        reconstruct t n (sub ++ rest) = .ok (natToBE (beToNat secret)) := by
  have hs : newShamir (t : Int) (n : Int) = some ⟨t, n⟩ := by
    unfold newShamir
    rw [if_neg (by omega), if_neg (by omega)]
    congr 2 <;> omega
  obtain ⟨shares, h1, h2, h3⟩ := C07_split_combine hn hpn hs secret hne hlt rnd
  set L := polyInit ((beToNat secret : Nat) : ZMod p) t rnd with hL
  have hg : getSharesAndPolynomial ⟨t, n⟩ secret rnd
      = .ok ((List.range n).map fun i => ⟨i + 1, evaluate L ((i + 1 : Nat) : ZMod p)⟩, L) := by
    unfold getSharesAndPolynomial
    rw [if_neg hne, if_neg (by simpa using hlt)]
    simp only
    rw [if_neg (by omega)]
  have hsh : shares = (List.range n).map fun i => ⟨i + 1, evaluate L ((i + 1 : Nat) : ZMod p)⟩ := by
    unfold SharingV1.split at h1
    rw [hg] at h1
    simp only [Res.ok.injEq] at h1
    exact h1.symm
  have hm : L.mapM (coeffPoint P) = some (L.map (· • P.g)) := by
    have : ∀ l : List (ZMod p), l.mapM (coeffPoint P) = some (l.map (· • P.g)) := by
      intro l
      induction l with
      | nil => rfl
      | cons a l ih => simp [List.mapM_cons, ih, coeffPoint_eq P (p_lt hp)]
    exact this L
  have hlen : L.length = t := length_polyInit _ _ _ (by omega)
  refine ⟨polyOf L, L.map (· • P.g), shares, ?_, ?_, ?_, ?_, ?_, ?_⟩
  · unfold splitKey
    rw [hs]
    simp only [hg, hm, hsh]
  · have := degree_polyOf_lt L
    rwa [hlen] at this
  · rw [hL, polyInit, Verif.Sharing.polyOf_eval_zero]
  · refine List.ext_getElem (by simp [hlen]) ?_
    intro i hi hi'
    simp only [List.getElem_map, List.getElem_range]
    rw [coeff_polyOf]
    congr 1
    rw [List.length_map] at hi
    simp [List.getD_eq_getElem?_getD, List.getElem?_eq_getElem hi]
  · rw [hsh]
    simp only [evaluate_eq]
  · intro sub rest a b c
    unfold reconstruct
    rw [hs]
    exact h3 sub rest a b c

/-! ## Signing -/

theorem tSign_eq (P : Params p G) (hp : p ≤ 2 ^ 253) (msg : List UInt8) (k r : Share p) (pub : List UInt8)
    (R : G) (hk : k.value ≠ 0) (hr : r.value ≠ 0) :
    tSign P msg k pub r (P.enc R) = .ok ⟨UInt8.ofNat k.id,
      P.enc R ++ natToLE 32 (P.H (P.enc R ++ pub ++ msg) * k.value + r.value).val⟩ := by
  have hp' := p_lt hp
  have h0 : ∀ x : ZMod p, x ≠ 0 → ¬ ((natToBE x.val).reverse.length = 0 ∨ (natToBE x.val).reverse.length > 32) := by
    intro x hx
    have h1 := natToBE_len hp' x
    have h2 : natToBE x.val ≠ [] := by
      rw [Ne, natToBE_eq_nil, ZMod.val_eq_zero]; exact hx
    have h3 := List.length_pos_iff.2 h2
    rw [List.length_reverse]
    omega
  unfold tSign thresholdSign
  rw [if_neg (h0 _ hk), if_neg (h0 _ hr), canonical_rev hp', canonical_rev hp']
  simp only
  rw [List.take_of_length_le (by rw [P.len_enc])]
  rw [if_neg (by simp [P.len_enc])]

theorem sigShares_eq (hp : p ≤ 256 ^ 32) (l : List (Nat × ZMod p)) (hl : ∀ x ∈ l, x.1 < 256)
    (R : List UInt8) (hR : R.length = 32) :
    sigShares p (l.map fun x => ⟨UInt8.ofNat x.1, R ++ natToLE 32 x.2.val⟩)
      = .ok (l.map fun x => ⟨x.1, x.2⟩) := by
  induction l with
  | nil => rfl
  | cons x l ih =>
    simp only [List.map_cons, sigShares]
    have hd : (R ++ natToLE 32 x.2.val).drop 32 = natToLE 32 x.2.val := by
      rw [List.drop_append_of_le_length (by omega), List.drop_of_length_le (by omega), List.nil_append]
    rw [hd, beToNat_reverse, natToLE_val hp, if_pos (ZMod.val_lt _), ih (fun y hy => hl y (by simp [hy]))]
    simp only [Res.bind]
    have : (UInt8.ofNat x.1).toNat = x.1 := by
      rw [UInt8.toNat_ofNat', Nat.mod_eq_of_lt (hl x (by simp))]
    rw [this]
    simp

theorem top_byte (hp : p ≤ 2 ^ 253) (x : ZMod p) :
    ((natToLE 32 x.val).getD 31 0) &&& 224 = 0 := by
  have hx : x.val < 2 ^ 253 := lt_of_lt_of_le (ZMod.val_lt x) hp
  have h31 : ∀ n : Nat, (natToLE 32 n).getD 31 0 = UInt8.ofNat (n / 256 ^ 31) := by
    have : ∀ (k len n : Nat), k < len → (natToLE len n).getD k 0 = UInt8.ofNat (n / 256 ^ k) := by
      intro k
      induction k with
      | zero =>
        intro len n h
        obtain ⟨m, rfl⟩ : ∃ m, len = m + 1 := ⟨len - 1, by omega⟩
        simp [natToLE]
      | succ k ih =>
        intro len n h
        obtain ⟨m, rfl⟩ : ∃ m, len = m + 1 := ⟨len - 1, by omega⟩
        simp only [natToLE, List.getD_cons_succ]
        rw [ih m _ (by omega), Nat.div_div_eq_div_mul]
        congr 2
        rw [Nat.pow_succ, Nat.mul_comm]
    intro n
    exact this 31 32 n (by norm_num)
  rw [h31]
  have hlt : x.val / 256 ^ 31 < 32 := by
    rw [Nat.div_lt_iff_lt_mul (by positivity)]
    calc x.val < 2 ^ 253 := hx
      _ = 32 * 256 ^ 31 := by norm_num
  generalize x.val / 256 ^ 31 = k at hlt
  have : ∀ k, k < 32 → UInt8.ofNat k &&& 224 = 0 := by decide
  exact this k hlt

/-- A 64-byte string `enc R ++ s` verifies under `enc A` iff `R = s·G - c·A`. -/
theorem verify_eq (P : Params p G) (hp : p ≤ 2 ^ 253) (A R : G) (msg : List UInt8) (s : ZMod p) :
    verify P (P.enc A) msg (P.enc R ++ natToLE 32 s.val)
      = .ok (decide (R = P.H (P.enc R ++ P.enc A ++ msg) • (-A) + s • P.g)) := by
  have hp' := p_lt hp
  have hinj : Function.Injective P.enc := fun a b h => by
    have := congrArg P.dec h
    rw [P.dec_enc, P.dec_enc] at this
    exact Option.some.inj this
  have hlen : (P.enc R).length = 32 := P.len_enc R
  have ht : (P.enc R ++ natToLE 32 s.val).take 32 = P.enc R := by
    rw [List.take_append_of_le_length (by omega), List.take_of_length_le (by omega)]
  have hd : (P.enc R ++ natToLE 32 s.val).drop 32 = natToLE 32 s.val := by
    rw [List.drop_append_of_le_length (by omega), List.drop_of_length_le (by omega), List.nil_append]
  have hg : (P.enc R ++ natToLE 32 s.val).getD 63 0 = (natToLE 32 s.val).getD 31 0 := by
    simp only [List.getD_eq_getElem?_getD]
    rw [List.getElem?_append_right (by omega), hlen]
  unfold verify
  rw [if_neg (by simp [P.len_enc]), if_neg (by rw [hg, top_byte hp]; simp [P.len_enc]), P.dec_enc]
  simp only
  rw [ht, hd]
  have hc : canonical (p := p) (natToLE 32 s.val) = some s := by
    unfold canonical
    rw [natToLE_val hp', if_pos ⟨by simp, ZMod.val_lt s⟩]
    simp
  rw [hc]
  simp only [hinj.eq_iff]

/-- **C18** Let `f`, `r` be the sharing polynomials (degree `< T`) of key and nonce – as produced by
dealing, or by adding dealt nonces.  For every message and any list of at least `T` distinct signers with
identifiers in `1..N`, `N ≤ 255`, none of whose shares is zero: all partial signatures are produced,
`Aggregate` succeeds, and the result `(R, s)`, `s = c·f(0) + r(0)`, verifies under the public key. -/
theorem C18_aggregate_verifies (P : Params p G) (hp : p ≤ 2 ^ 253) {t n : Nat} (ht : 2 ≤ t) (htn : t ≤ n)
    (hn : n ≤ 255) (hpn : n < p) (f r : (ZMod p)[X]) (hf : f.degree < t) (hr : r.degree < t)
    (ids : List Nat) (hnd : ids.Nodup) (hlen : t ≤ ids.length) (hids : ∀ i ∈ ids, 1 ≤ i ∧ i ≤ n)
    (hnz : ∀ i ∈ ids, f.eval ((i : Nat) : ZMod p) ≠ 0 ∧ r.eval ((i : Nat) : ZMod p) ≠ 0)
    (msg : List UInt8) :
    let A := P.enc (f.eval 0 • P.g)
    let R := P.enc (r.eval 0 • P.g)
    ∃ (σ : Nat → PartialSig) (sig : List UInt8),
      (∀ i ∈ ids, tSign P msg ⟨i, f.eval ((i : Nat) : ZMod p)⟩ A ⟨i, r.eval ((i : Nat) : ZMod p)⟩ R = .ok (σ i)) ∧
      aggregate p t n (ids.map σ) = .ok sig ∧
      sig = R ++ natToLE 32 (P.H (R ++ A ++ msg) * f.eval 0 + r.eval 0).val ∧
      verify P A msg sig = .ok true := by
  intro A R
  have hp' := p_lt hp
  have hRl : R.length = 32 := P.len_enc _
  have hs : newShamir (t : Int) (n : Int) = some ⟨t, n⟩ := by
    unfold newShamir
    rw [if_neg (by omega), if_neg (by omega)]
    congr 2 <;> omega
  set c := P.H (R ++ A ++ msg) with hc
  set F : (ZMod p)[X] := C c * f + r with hF
  have hFe : ∀ x, F.eval x = c * f.eval x + r.eval x := by intro x; simp [hF]
  have hFd : F.degree < t := by
    refine lt_of_le_of_lt (degree_add_le _ _) (max_lt ?_ hr)
    by_cases h0 : c = 0
    · rw [h0, C_0, zero_mul, degree_zero]; exact WithBot.bot_lt_coe _
    · rw [degree_mul, degree_C h0, zero_add]; exact hf
  let σ : Nat → PartialSig := fun i => ⟨UInt8.ofNat i, R ++ natToLE 32 (F.eval ((i : Nat) : ZMod p)).val⟩
  have hσ : ids.map σ = (ids.map fun i => (i, F.eval ((i : Nat) : ZMod p))).map
      fun x => ⟨UInt8.ofNat x.1, R ++ natToLE 32 x.2.val⟩ := by
    rw [List.map_map]; rfl
  refine ⟨σ, R ++ natToLE 32 (c * f.eval 0 + r.eval 0).val, ?_, ?_, rfl, ?_⟩
  · intro i hi
    rw [tSign_eq P hp msg _ _ _ _ (hnz i hi).1 (hnz i hi).2]
    simp only [σ, hFe, hc]
    rfl
  · have hsh : sigShares p (ids.map σ) = .ok (ids.map fun i => ⟨i, F.eval ((i : Nat) : ZMod p)⟩) := by
      rw [hσ, sigShares_eq hp' _ _ R hRl]
      · rw [List.map_map]; rfl
      · intro x hx
        obtain ⟨i, hi, rfl⟩ := List.mem_map.1 hx
        have := (hids i hi).2
        simp only
        omega
    set shs : List (Share p) := ids.map fun i => ⟨i, F.eval ((i : Nat) : ZMod p)⟩ with hshs
    have hcomb : combine ⟨t, n⟩ shs = .ok (natToBE (F.eval 0).val) := by
      have e : shs = shs.take t ++ shs.drop t := (List.take_append_drop t shs).symm
      have hmem : ∀ s ∈ shs, 1 ≤ s.id ∧ s.id ≤ n ∧ s.value = F.eval ((s.id : Nat) : ZMod p) := by
        intro s hsm
        obtain ⟨i, hi, rfl⟩ := List.mem_map.1 hsm
        exact ⟨(hids i hi).1, (hids i hi).2, rfl⟩
      have hidl : shs.map Share.id = ids := by
        rw [hshs, List.map_map]; simp [Function.comp_def]
      have hsub : ∀ s ∈ shs.take t, s ∈ shs := fun s h => List.mem_of_mem_take h
      obtain ⟨a, -, b⟩ := C07_combine_spec (p := p) (t := t) (n := n) (by omega) hpn hs (shs.take t)
        (shs.drop t) (by simp [hshs]; omega) (fun s h => ⟨(hmem s (hsub s h)).1, (hmem s (hsub s h)).2.1⟩)
      rw [e, a]
      refine b ?_ F hFd (fun s h => (hmem s (hsub s h)).2.2)
      rw [List.map_take, hidl]
      exact List.Nodup.sublist (List.take_sublist _ _) hnd
    cases hi : ids with
    | nil => rw [hi] at hlen; simp at hlen; omega
    | cons i0 rest =>
      have hsR : ∀ i, (σ i).sig.take 32 = R := by
        intro i
        simp only [σ]
        rw [List.take_append_of_le_length (by omega), List.take_of_length_le (by omega)]
      unfold aggregate
      simp only [List.map_cons]
      rw [if_neg]
      · rw [hs]
        simp only
        rw [← List.map_cons (f := σ), ← hi, hsh]
        simp only [Res.bind]
        rw [hcomb]
        simp only
        rw [hsR, pad32_rev hp', hFe]
      · rw [List.any_eq_true]
        rintro ⟨s, hsm, hne⟩
        obtain ⟨i, -, rfl⟩ := List.mem_map.1 hsm
        rw [hsR, hsR] at hne
        simp at hne
  · rw [verify_eq P hp]
    congr 1
    rw [decide_eq_true_eq]
    change _ = c • _ + _
    rw [smul_neg, smul_smul, add_smul]
    abel

/-- **C18** (nonces from several dealers) share-wise addition of two dealt nonces and `GeAdd` of their
public parts is again a sharing of the sum with its public part, so `C18_aggregate_verifies` applies. -/
theorem C18_nonce_add (P : Params p G) (r r' : (ZMod p)[X]) {t : Nat} (hr : r.degree < t)
    (hr' : r'.degree < t) :
    (r + r').degree < t ∧
    geAdd P (P.enc (r.eval 0 • P.g)) (P.enc (r'.eval 0 • P.g)) = .ok (P.enc ((r + r').eval 0 • P.g)) ∧
    ∀ i : Nat, Share.add (⟨i, r.eval ((i : Nat) : ZMod p)⟩ : Share p) ⟨i, r'.eval ((i : Nat) : ZMod p)⟩
      = .ok ⟨i, (r + r').eval ((i : Nat) : ZMod p)⟩ := by
  refine ⟨lt_of_le_of_lt (degree_add_le _ _) (max_lt hr hr'), ?_, ?_⟩
  · unfold geAdd
    rw [P.dec_enc, P.dec_enc]
    simp [add_smul]
  · intro i
    simp [Share.add]

/-- **C18** (whole-API form) deal a key and a nonce, let any `T` or more distinct signers sign; everything
verifies under the dealt public key. -/
theorem C18_end_to_end (P : Params p G) (hp : p ≤ 2 ^ 253) {t n : Nat} (ht : 2 ≤ t) (htn : t ≤ n)
    (hn : n ≤ 255) (hpn : n < p) (key nonce : List UInt8) (hk : key ≠ [] ∧ beToNat key < p)
    (hr : nonce ≠ [] ∧ beToNat nonce < p) (rk rn : Nat → ZMod p) (msg : List UInt8) :
    ∃ commK ks commN ns, splitKey P t n key rk = .ok (commK, ks) ∧ splitKey P t n nonce rn = .ok (commN, ns) ∧
      ∀ idx : List (Fin n), idx.Nodup → t ≤ idx.length →
        (∀ i ∈ idx, ∀ k v, ks[i.1]? = some k → ns[i.1]? = some v → k.value ≠ 0 ∧ v.value ≠ 0) →
        ∃ (σ : Fin n → PartialSig) (sig : List UInt8),
          (∀ i ∈ idx, ∃ k v, ks[i.1]? = some k ∧ ns[i.1]? = some v ∧
            tSign P msg k (P.enc (((beToNat key : Nat) : ZMod p) • P.g)) v
              (P.enc (((beToNat nonce : Nat) : ZMod p) • P.g)) = .ok (σ i)) ∧
          aggregate p t n (idx.map σ) = .ok sig ∧
          verify P (P.enc (((beToNat key : Nat) : ZMod p) • P.g)) msg sig = .ok true := by
  obtain ⟨f, cK, ks, h1, h2, h3, -, h4, -⟩ := C18_deal P hp ht htn (by omega) hpn key hk.1 hk.2 rk
  obtain ⟨r, cN, ns, k1, k2, k3, -, k4, -⟩ := C18_deal P hp ht htn (by omega) hpn nonce hr.1 hr.2 rn
  refine ⟨cK, ks, cN, ns, h1, k1, ?_⟩
  intro idx hnd hlen hnz
  have gk : ∀ i : Fin n, ks[i.1]? = some ⟨i.1 + 1, f.eval ((i.1 + 1 : Nat) : ZMod p)⟩ := by
    intro i; rw [h4]; simp
  have gn : ∀ i : Fin n, ns[i.1]? = some ⟨i.1 + 1, r.eval ((i.1 + 1 : Nat) : ZMod p)⟩ := by
    intro i; rw [k4]; simp
  obtain ⟨σ, sig, a, b, -, d⟩ := C18_aggregate_verifies P hp ht htn hn hpn f r h2 k2
    (idx.map fun i => i.1 + 1) (by
      refine hnd.map ?_
      intro a b hab
      exact Fin.ext (by simpa using hab)) (by simpa using hlen)
    (by
      intro j hj
      obtain ⟨i, -, rfl⟩ := List.mem_map.1 hj
      have := i.2
      omega)
    (by
      intro j hj
      obtain ⟨i, hi, rfl⟩ := List.mem_map.1 hj
      exact hnz i hi _ _ (gk i) (gn i)) msg
  rw [h3, k3] at a
  rw [h3] at d
  refine ⟨fun i => σ (i.1 + 1), sig, ?_, ?_, d⟩
  · intro i hi
    exact ⟨_, _, gk i, gn i, a (i.1 + 1) (List.mem_map.2 ⟨i, hi, rfl⟩)⟩
  · rw [List.map_map] at b
    exact b

/-- **C18** partial signatures made with different nonce keys are refused. -/
theorem C18_nonce_mismatch (T N : Int) (a b : PartialSig) (pre rest : List PartialSig)
    (h : b.sig.take 32 ≠ a.sig.take 32) : aggregate p T N (a :: pre ++ b :: rest) = .err := by
  unfold aggregate
  simp only [List.cons_append]
  rw [if_pos]
  rw [List.any_eq_true]
  exact ⟨b, by simp, by simpa using h⟩

/-- **C18** (finding) a signer whose key or nonce share happens to be zero cannot sign: `TSign` panics. -/
theorem C18_zero_share_panics (P : Params p G) (msg pub R : List UInt8) (k r : Share p)
    (h : k.value = 0 ∨ r.value = 0) : tSign P msg k pub r R = .panic := by
  unfold tSign thresholdSign
  rcases h with h | h
  · simp [h]
  · simp only [h, ZMod.val_zero, natToBE_zero, List.reverse_nil, List.length_nil, true_or, if_true]
    split <;> first | rfl | (rename_i hh; split at hh <;> cases hh)

/-- **C18** (finding) the identifier of a partial signature is the share's identifier modulo 256, so with
more than 255 participants the signatures of `i` and `i+256` are both filed under `i`. -/
theorem C18_identifier_truncated (P : Params p G) (msg pub R : List UInt8) (k r : Share p) (σ)
    (h : tSign P msg k pub r R = .ok σ) : σ.id.toNat = k.id % 256 := by
  unfold tSign at h
  split at h
  · split at h
    · cases h
    · cases h
      simp [UInt8.toNat_ofNat']
  · cases h
  · cases h

/-! ## C19 -/

/-- The scalar the loop really uses in place of `x`: the big-endian bytes of `x` read as little-endian. -/
def swapped (x : ZMod p) : ZMod p := ((leToNat (natToBE x.val) : Nat) : ZMod p)

theorem swapped_small (x : ZMod p) (h : x.val < 256) : swapped x = x := by
  unfold swapped
  have : leToNat (natToBE x.val) = x.val := by
    have hl : (natToBE x.val).length ≤ 1 := by
      rw [length_natToBE, byteLen_le_iff]; simpa using h
    have hb := beToNat_natToBE x.val
    rcases hb' : natToBE x.val with _ | ⟨a, _ | ⟨b, l⟩⟩
    · rw [hb'] at hb; simpa [leToNat] using hb
    · rw [hb'] at hb; simpa [leToNat, beToNat_cons] using hb
    · rw [hb'] at hl; simp at hl
  rw [this]; simp

theorem vssLoop_small (x : ZMod p) (hp : p ≤ 256 ^ 32) (cs : List G) (i : ZMod p) (rhs : G)
    (h : ∀ j, 1 ≤ j → j ≤ cs.length → (i * x ^ j).val < 256) :
    vssLoop x i rhs cs = some (Verif.Sharing.commitEvalLoop x i rhs cs) := by
  induction cs generalizing i rhs with
  | nil => rfl
  | cons c cs ih =>
    unfold vssLoop Verif.Sharing.commitEvalLoop
    have h1 : (i * x).val < 256 := by simpa using h 1 (by omega) (by simp)
    have hc : canonical (p := p) (pad32 (natToBE (i * x).val)) = some (i * x) := by
      obtain ⟨a, b⟩ := pad32_spec (natToBE (i * x).val) (natToBE_len hp _)
      have hs := swapped_small (i * x) h1
      unfold swapped at hs
      unfold canonical
      rw [a, b, if_pos, hs]
      refine ⟨rfl, ?_⟩
      have hl : (natToBE (i * x).val).length ≤ 1 := by
        rw [length_natToBE, byteLen_le_iff]; simpa using h1
      have hb := beToNat_natToBE (i * x).val
      have hv := ZMod.val_lt (i * x)
      rcases hb' : natToBE (i * x).val with _ | ⟨a, _ | ⟨b, l⟩⟩
      · have := (Fact.out : p.Prime).pos
        simpa [leToNat] using this
      · rw [hb'] at hb
        simp [beToNat_cons] at hb
        simp only [leToNat]; omega
      · rw [hb'] at hl; simp at hl
    rw [hc]
    simp only
    apply ih
    intro j h1 h2
    have := h (j + 1) (by omega) (by simp; omega)
    rwa [pow_succ', ← mul_assoc] at this

/-- **C19** (part) as long as every power `id^j` used (`j` below the number of commitments) is smaller
than 256, `VerifyVSS` is exactly the Feldman check: for commitments to a polynomial `f` it accepts
`(id, v)` iff `v = f(id)`.  In particular honest shares are accepted when `id^(T-1) < 256`. -/
theorem C19_vss_small_partial (P : Params p G) (hg : P.g ≠ 0) (hp : p ≤ 2 ^ 253) (f : (ZMod p)[X])
    {t : Nat} (ht : 2 ≤ t) (hf : f.degree < t) (sh : Share p) (hid : sh.id ^ (t - 1) < 256)
    (h1 : 1 ≤ sh.id) (h256 : 256 < p) :
    verifyVSS P t sh ((List.range t).map fun j => f.coeff j • P.g)
      = .ok (decide (sh.value = f.eval ((sh.id : Nat) : ZMod p))) := by
  have hbig : ¬ p ≤ sh.id := by
    intro hbig
    have : sh.id ^ 1 ≤ sh.id ^ (t - 1) := Nat.pow_le_pow_right h1 (by omega)
    simp at this; omega
  have hp' := p_lt hp
  have hpow : ∀ j, j ≤ t - 1 → sh.id ^ j < 256 := fun j hj =>
    lt_of_le_of_lt (Nat.pow_le_pow_right h1 hj) hid
  obtain ⟨m, rfl⟩ : ∃ m, t = m + 1 := ⟨t - 1, by omega⟩
  have hcomm : (List.range (m + 1)).map (fun j => f.coeff j • P.g)
      = (f.coeff 0 • P.g) :: (List.range m).map (fun j => f.coeff (j + 1) • P.g) := by
    rw [List.range_succ_eq_map, List.map_cons, List.map_map]; rfl
  have hnat : f.natDegree < m + 1 := by
    by_cases h0 : f = 0
    · simp [h0]
    · rw [Polynomial.degree_eq_natDegree h0] at hf
      exact_mod_cast hf
  unfold verifyVSS
  rw [if_neg (by simp), if_neg hbig, hcomm]
  simp only
  rw [vssLoop_small _ hp']
  · simp only
    rw [canonical_rev hp']
    simp only
    have : Verif.Sharing.commitEvalLoop ((sh.id : Nat) : ZMod p) 1 (f.coeff 0 • P.g)
        ((List.range m).map (fun j => f.coeff (j + 1) • P.g))
        = f.eval ((sh.id : Nat) : ZMod p) • P.g := by
      have e := Verif.Sharing.commitEval_sum ((sh.id : Nat) : ZMod p)
        ((f.coeff 0 • P.g) :: (List.range m).map (fun j => f.coeff (j + 1) • P.g))
      rw [← hcomm] at e
      have hlhs : Verif.Sharing.commitEval ((sh.id : Nat) : ZMod p)
          ((List.range (m + 1)).map (fun j => f.coeff j • P.g))
          = Verif.Sharing.commitEvalLoop ((sh.id : Nat) : ZMod p) 1 (f.coeff 0 • P.g)
        ((List.range m).map (fun j => f.coeff (j + 1) • P.g)) := by rw [hcomm]; rfl
      rw [← hlhs, e, Polynomial.eval_eq_sum_range' (n := m + 1)
        hnat, Finset.sum_smul]
      rw [List.length_map, List.length_range]
      refine Finset.sum_congr rfl fun k hk => ?_
      rw [List.getD_eq_getElem?_getD, List.getElem?_map, List.getElem?_range (Finset.mem_range.1 hk)]
      simp only [Option.map_some, Option.getD_some]
      rw [smul_smul, mul_comm]
    rw [this]
    congr 1
    rw [decide_eq_decide]
    exact ⟨fun h => SharingV1.smul_cancel hg h, fun h => by rw [h]⟩
  · intro j hj1 hj2
    rw [one_mul, ← Nat.cast_pow, ZMod.val_natCast, Nat.mod_eq_of_lt]
    · exact hpow j (by simpa using hj2)
    · have := hpow j (by simpa using hj2); omega

/-- **C19** (negation, finding) with threshold 3, participant 16 (and 16 ≤ N): an honest dealing whose
leading coefficient is not zero is *rejected* for participant 16, because `16² = 256` has the big-endian
bytes `01 00`, which are read back as 1.  This holds for every prime order above 256. -/
theorem C19_honest_share_rejected (P : Params p G) (hg : P.g ≠ 0) (hp : p ≤ 2 ^ 253) (h256 : 256 < p)
    (a b c : ZMod p) (hc : c ≠ 0) :
    verifyVSS P 3 (⟨16, a + b * 16 + c * 16 ^ 2⟩ : Share p) [a • P.g, b • P.g, c • P.g] = .ok false := by
  have hp' := p_lt hp
  have v16 : (1 * ((16 : Nat) : ZMod p)).val = 16 := by
    rw [one_mul, ZMod.val_natCast, Nat.mod_eq_of_lt (by omega)]
  have v256 : (1 * ((16 : Nat) : ZMod p) * ((16 : Nat) : ZMod p)).val = 256 := by
    rw [one_mul, ← Nat.cast_mul, ZMod.val_natCast, Nat.mod_eq_of_lt (by omega)]
  have b16 : natToBE 16 = [16] := by decide +kernel
  have b256 : natToBE 256 = [1, 0] := by decide +kernel
  have c16 : canonical (p := p) (pad32 [16]) = some 16 := by
    have : leToNat (pad32 [16]) = 16 := by decide +kernel
    unfold canonical
    rw [this, if_pos ⟨by decide, by omega⟩]; rfl
  have c1 : canonical (p := p) (pad32 [1, 0]) = some 1 := by
    have : leToNat (pad32 [1, 0]) = 1 := by decide +kernel
    unfold canonical
    rw [this, if_pos ⟨by decide, by omega⟩]; simp
  unfold verifyVSS
  rw [if_neg (by simp), if_neg (by simp only; omega)]
  simp only [vssLoop, v16, v256, b16, b256, c16, c1]
  rw [canonical_rev hp']
  simp only
  congr 1
  rw [decide_eq_false_iff_not]
  intro h
  have : (a + b * 16 + c * 16 ^ 2) • P.g = (a + 16 * b + 1 * c) • P.g := by
    rw [h]; simp only [add_smul, mul_smul, one_smul]
  have := SharingV1.smul_cancel hg this
  have h255 : (255 : ZMod p) * c = 0 := by linear_combination this
  rcases mul_eq_zero.1 h255 with h0 | h0
  · have : ((255 : Nat) : ZMod p) = 0 := by exact_mod_cast h0
    rw [ZMod.natCast_eq_zero_iff] at this
    exact absurd (Nat.le_of_dvd (by norm_num) this) (by omega)
  · exact hc h0

/-- **C19** (the same at the API level) for every dealing with `T = 3`, `N = 16` whose third random
coefficient is not zero, the honest share of participant 16 fails its own verification. -/
theorem C19_dealing_rejected (P : Params p G) (hg : P.g ≠ 0) (hp : p ≤ 2 ^ 253) (h256 : 256 < p)
    (secret : List UInt8) (hne : secret ≠ []) (hlt : beToNat secret < p) (rnd : Nat → ZMod p)
    (hr : rnd 1 ≠ 0) :
    ∃ comm shares sh, splitKey P 3 16 secret rnd = .ok (comm, shares) ∧ shares[15]? = some sh ∧
      sh.id = 16 ∧ verifyVSS P 3 sh comm = .ok false := by
  have hs : newShamir (3 : Int) (16 : Int) = some ⟨3, 16⟩ := by decide
  have hg' : getSharesAndPolynomial ⟨3, 16⟩ secret rnd
      = .ok ((List.range 16).map fun i => ⟨i + 1, evaluate [((beToNat secret : Nat) : ZMod p), rnd 0, rnd 1]
        ((i + 1 : Nat) : ZMod p)⟩, [((beToNat secret : Nat) : ZMod p), rnd 0, rnd 1]) := by
    unfold getSharesAndPolynomial
    rw [if_neg hne, if_neg (by simpa using hlt)]
    simp only
    rw [if_neg (by omega)]
    rfl
  refine ⟨[((beToNat secret : Nat) : ZMod p) • P.g, rnd 0 • P.g, rnd 1 • P.g],
    (List.range 16).map fun i => ⟨i + 1, evaluate [((beToNat secret : Nat) : ZMod p), rnd 0, rnd 1] ((i + 1 : Nat) : ZMod p)⟩,
    ⟨16, ((beToNat secret : Nat) : ZMod p) + rnd 0 * 16 + rnd 1 * 16 ^ 2⟩, ?_, ?_, rfl,
    C19_honest_share_rejected P hg hp h256 _ _ _ hr⟩
  · unfold splitKey
    rw [hs]
    simp only [hg', List.mapM_cons, List.mapM_nil, coeffPoint_eq P (p_lt hp)]
    rfl
  · rw [List.getElem?_map, List.getElem?_range (by norm_num)]
    simp only [Option.map_some, evaluate]
    congr 2
    push_cast
    ring

/-! ## Non-vacuity: the toy group `ZMod 257` -/

local instance fact257 : Fact (Nat.Prime 257) := ⟨by norm_num⟩

def toyParams : Params 257 (ZMod 257) where
  g := 3
  enc x := natToLE 32 x.val
  dec b := canonical b
  len_enc := by simp
  dec_enc x := by
    unfold canonical
    rw [natToLE_val (by norm_num), if_pos ⟨by simp, ZMod.val_lt x⟩]
    simp
  H l := ((l.foldl (fun a b => a * 3 + b.toNat) 1 : Nat) : ZMod 257)

/-- deal key 77 and nonce 5 to 4 people with threshold 2, let 1, 3 and 4 sign -/
def toyRun : Res Bool :=
  match splitKey toyParams 2 4 [77] (fun _ => 9), splitKey toyParams 2 4 [5] (fun _ => 20) with
  | .ok (_, ks), .ok (_, ns) =>
    match ks, ns with
    | [k1, _, k3, k4], [n1, _, n3, n4] =>
      let A := toyParams.enc (77 • toyParams.g)
      let R := toyParams.enc (5 • toyParams.g)
      match tSign toyParams [1, 2] k1 A n1 R, tSign toyParams [1, 2] k3 A n3 R, tSign toyParams [1, 2] k4 A n4 R with
      | .ok a, .ok b, .ok c =>
        (aggregate 257 2 4 [c, a, b]).bind fun sig => verify toyParams A [1, 2] sig
      | _, _, _ => .err
    | _, _ => .err
  | _, _ => .err

example : toyRun = .ok true := by decide +kernel

/-- the hypotheses of the negation are met (participant 16 is rejected), and small identifiers do verify -/
def toyVss (i : Nat) : Res Bool :=
  match splitKey toyParams 3 16 [77] (fun _ => 9) with
  | .ok (comm, shares) => match shares[i - 1]? with
    | some sh => verifyVSS toyParams 3 sh comm
    | none => .panic
  | _ => .err

example : toyVss 16 = .ok false ∧ toyVss 15 = .ok true ∧ toyVss 2 = .ok true := by decide +kernel

end Verif.Ted25519
