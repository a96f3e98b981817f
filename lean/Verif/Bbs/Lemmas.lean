import Verif.Bbs.Model
import Verif.Bulletproof.Lemmas
import Verif.Base.Bytes

/-! Lemmas about the BBS+ model: generators, sums of products, draws. -/

set_option linter.unusedSectionVars false

namespace Verif.Bbs

open Verif
open Verif.OT (Ev Transcript idx)
open Verif.Bulletproof (msm)

variable {F G1 G2 GT : Type} [Field F] [DecidableEq F] [AddCommGroup G1] [Module F G1] [DecidableEq G1]
  [AddCommGroup G2] [Module F G2] [DecidableEq G2] [CommGroup GT] [DecidableEq GT]

/-! ### specification -/

/-- `Σ aᵢ·P` for one point -/
theorem msm_const (P : G1) (ps : List G1) (a : List F) (h : ps.length = a.length) (hp : ∀ q ∈ ps, q = P) :
    msm ps a = a.sum • P := by
  induction ps generalizing a with
  | nil =>
    cases a with
    | nil => simp
    | cons x a => simp at h
  | cons q ps ih =>
    cases a with
    | nil => simp at h
    | cons x a =>
      rw [Bulletproof.msm_cons, ih a (by simpa using h) (fun q hq => hp q (by simp [hq])), hp q (by simp),
        List.sum_cons, add_smul]

theorem mapM_some (ps : List G1) : (ps.map some).mapM id = some ps := by
  induction ps with
  | nil => rfl
  | cons p ps ih =>
    rw [List.map_cons, List.mapM_cons, ih]
    rfl

theorem mapM_none {ps : List (Option G1)} (h : none ∈ ps) : ps.mapM id = none := by
  induction ps with
  | nil => simp at h
  | cons p ps ih =>
    rw [List.mapM_cons]
    cases p with
    | none => rfl
    | some q =>
      rw [ih (by simpa using h)]
      rfl

/-- a sum of products of non-nil points -/
theorem sop_some {ps : List G1} {a : List F} (h : ps.length = a.length) :
    sop (ps.map some) a = some (msm ps a) := by
  unfold sop msm
  rw [mapM_some]
  simp [h]

theorem sop_mismatch {ps : List G1} {a : List F} (h : ps.length ≠ a.length) :
    sop (ps.map some) a = none := by
  unfold sop
  rw [mapM_some]
  simp [h]

theorem sop_nil_point {ps : List (Option G1)} {a : List F} (h : none ∈ ps) : sop ps a = none := by
  unfold sop
  rw [mapM_none h]
  rfl

/-! ### generators -/

/-- the 201 bytes hashed: the public key, five zero bytes, the number of messages in four bytes -/
def genBytes (V : Env F G1 G2) (w : G2) (n : Nat) : List UInt8 :=
  (V.unc2 w ++ List.replicate 192 0).take 192 ++ List.replicate 5 0 ++
    [byteAt n 24, byteAt n 16, byteAt n 8, byteAt n 0]

theorem init_eq (V : Env F G1 G2) (w : G2) (length : Int) :
    Generators.init V w length =
      if length < 0 then .err
      else .ok { h0 := V.hash1 (genBytes V w length.toNat), length := length.toNat,
                 state := genBytes V w length.toNat } := by
  unfold Generators.init
  split
  · rfl
  · have hl : ((V.unc2 w ++ List.replicate 192 (0 : UInt8)).take 192).length = 192 := by
      rw [List.length_take, List.length_append, List.length_replicate]; omega
    have e : ((((((V.unc2 w ++ List.replicate 192 (0 : UInt8)).take 192 ++ List.replicate 9 0).set 197
        (byteAt length.toNat 24)).set 198 (byteAt length.toNat 16)).set 199
        (byteAt length.toNat 8)).set 200 (byteAt length.toNat 0)) = genBytes V w length.toNat := by
      unfold genBytes
      rw [List.set_append_right _ _ (by omega), List.set_append_right _ _ (by omega),
        List.set_append_right _ _ (by omega), List.set_append_right _ _ (by omega), List.append_assoc, hl]
      rfl
    simp only [e]

theorem init_ok {V : Env F G1 G2} {w : G2} {n : Int} {g : Generators G1} (h : Generators.init V w n = .ok g) :
    0 ≤ n ∧ (g.length : Int) = n ∧ g.state = genBytes V w n.toNat ∧ g.h0 = V.hash1 (genBytes V w n.toNat) := by
  rw [init_eq] at h
  split at h
  · exact nomatch h
  · injection h with h
    subst h
    refine ⟨by omega, ?_, rfl, rfl⟩
    show ((n.toNat : Nat) : Int) = n
    omega

/-- all generators of one object are the same point -/
theorem get_eq {V : Env F G1 G2} {w : G2} {n : Int} {g : Generators G1} (h : Generators.init V w n = .ok g)
    (i : Int) : g.get V i = if i ≤ n then some g.h0 else none := by
  obtain ⟨h0, h1, h2, h3⟩ := init_ok h
  unfold Generators.get
  by_cases hi : i ≤ 0
  · rw [if_pos hi, if_pos (by omega)]
  · rw [if_neg hi]
    by_cases hn : i ≤ n
    · rw [if_neg (by omega), if_pos hn, h2, h3]
    · rw [if_pos (by omega), if_neg hn]

/-! ### draws -/

theorem getNonZero_ok {r : List F} {x : F} {r' : List F} (h : getNonZero r = .ok (x, r')) : x ≠ 0 := by
  induction r with
  | nil => exact nomatch h
  | cons y r ih =>
    rw [getNonZero] at h
    split at h
    · exact ih h
    · rename_i hy
      injection h with h
      injection h with h1 h2
      rw [← h1]
      exact hy

theorem getNonZero_ne_panic (r : List F) : getNonZero r ≠ .panic := by
  induction r with
  | nil => exact nofun
  | cons y r ih =>
    rw [getNonZero]
    split
    · exact ih
    · exact nofun

theorem nonceData_ok {V : Env F G1 G2} {w : G2} {n : Int} {g : Generators G1}
    (h : Generators.init V w n = .ok g) (msgs : List F) :
    nonceData V g msgs = .ok ((List.replicate (g.length + 1) g.h0).flatMap V.unc1 ++ msgs.flatMap V.bytes) := by
  have key : ∀ l : List Nat, (∀ i ∈ l, i ≤ g.length) →
      l.mapM (fun (i : Nat) => deref (g.get V i)) = Res.ok (List.replicate l.length g.h0) := by
    intro l hl
    induction l with
    | nil => rfl
    | cons i l ih =>
      have hi := hl i (by simp)
      have h1 := (init_ok h).2.1
      rw [List.mapM_cons, get_eq h, if_pos (by omega), ih (fun j hj => hl j (by simp [hj]))]
      rfl
  unfold nonceData
  rw [key (List.range (g.length + 1)) (fun i hi => by rw [List.mem_range] at hi; omega), List.length_range]
  rfl

/-- the scalar multiples of the points `Get(1)`, `Get(2)`, ... -/
def msgPoint (H : Nat → G1) (msgs : List F) : G1 :=
  (List.zipWith (fun i m => (m : F) • H (i + 1)) (List.range msgs.length) msgs).sum

theorem computeB_eq {V : Env F G1 G2} (E : Pairing F G1 G2 GT) {g : Generators G1} {H : Nat → G1}
    (hH : ∀ i : Nat, i ≤ g.length → g.get V i = some (H i)) (s : F) {msgs : List F}
    (h1 : 1 ≤ msgs.length) (h2 : msgs.length ≤ g.length) :
    computeB V E s msgs g = .ok (E.g1 + s • H 0 + msgPoint H msgs) := by
  have e1 : (some E.g1 :: g.get V 0 :: (List.range msgs.length).map fun (i : Nat) => g.get V (i + 1)) =
      (E.g1 :: H 0 :: (List.range msgs.length).map fun i => H (i + 1)).map some := by
    rw [List.map_cons, List.map_cons, List.map_map]
    have := hH 0 (by omega)
    rw [Nat.cast_zero] at this
    rw [this]
    congr 2
    apply List.map_congr_left
    intro i hi
    rw [List.mem_range] at hi
    have := hH (i + 1) (by omega)
    rw [Nat.cast_add, Nat.cast_one] at this
    rw [this]
    rfl
  unfold computeB
  cases msgs with
  | nil => simp at h1
  | cons m ms =>
    simp only []
    rw [e1, sop_some (by simp), Bulletproof.msm_cons, Bulletproof.msm_cons, one_smul]
    unfold deref msgPoint msm
    rw [List.zipWith_map_left, ← add_assoc]

theorem msgPoint_const {g : Generators G1} {H : Nat → G1} {P : G1} {msgs : List F}
    (hH : ∀ i : Nat, i ≤ g.length → H i = P) (h2 : msgs.length ≤ g.length) :
    msgPoint H msgs = msgs.sum • P := by
  have := msm_const P ((List.range msgs.length).map fun i => H (i + 1)) msgs (by simp)
    (by
      intro q hq
      rw [List.mem_map] at hq
      obtain ⟨i, hi, rfl⟩ := hq
      rw [List.mem_range] at hi
      exact hH _ (by omega))
  rw [← this]
  unfold msgPoint msm
  rw [List.zipWith_map_left]

theorem computeB_init {V : Env F G1 G2} (E : Pairing F G1 G2 GT) {w : G2} {n : Int} {g : Generators G1}
    (h : Generators.init V w n = .ok g) (s : F) {msgs : List F}
    (h1 : 1 ≤ msgs.length) (h2 : msgs.length ≤ g.length) :
    computeB V E s msgs g = .ok (E.g1 + (s + msgs.sum) • g.h0) := by
  rw [computeB_eq E (H := fun _ => g.h0)
    (fun i hi => by rw [get_eq h, if_pos (by have := (init_ok h).2.1; omega)]) s h1 h2,
    msgPoint_const (g := g) (P := g.h0) (fun _ _ => rfl) h2, add_smul, add_assoc]

end Verif.Bbs
