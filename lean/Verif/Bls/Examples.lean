import Verif.Bls.Threshold
import Mathlib.Data.ZMod.Basic
import Mathlib.Algebra.Field.ZMod

/-! Concrete cases for C36 and C37: the field of 257 elements paired with itself, with curve points
outside the subgroup. -/

set_option linter.unusedVariables false

namespace Verif.Bls.Examples

open Verif.Sharing Verif.Bytes

abbrev K := ZMod 257

instance : DecidableEq (Multiplicative K) := inferInstanceAs (DecidableEq K)

/-- curve points: a field element and a flag, the subgroup being the points with flag `false` -/
def toyCurve : CurveGroup K K (K × Bool) where
  ι a := (a, false)
  inj a b h := by simpa using h
  inSub c := !c.2
  inSub_iff c := by rcases c with ⟨a, _ | _⟩ <;> simp
  isId c := decide (c = (0, false))
  isId_iff c := by simp
  add a b := (a.1 + b.1, a.2 != b.2)
  add_ι a b := by simp
  mul a x := (x * a.1, a.2)
  mul_ι a x := by simp

/-- the toy environment -/
def V (minSig : Bool) : Env K K K (Multiplicative K) (K × Bool) (K × Bool) where
  variant := ⟨minSig⟩
  E := toyPairing K
  kp := toyCurve
  sg := toyCurve
  neg_p a := (-a.1, a.2)
  neg_p_ι a := rfl
  neg_s a := (-a.1, a.2)
  neg_s_ι a := rfl
  pair a b := Multiplicative.ofAdd (a.1 * b.1)
  pair_ι a b := rfl
  hash m d := (beToNat m + 3 * d.length : Nat)
  pkBytes a := codec257.toBytes a.1
  sc := codec257

/-- sign, verify, and some rejections, in both variants -/
example : ∀ b, getPublicKey (V b) 5 = .ok (5, false) ∧
    basicSign (V b) [7] 5 (some [1, 2]) = .ok (5 * 261, false) ∧
    basicVerify (V b) [7] (5, false) (some [1, 2]) (5 * 261, false) = .ok true ∧
    basicVerify (V b) [7] (5, false) (some [1, 2]) (9, false) = .ok false ∧
    basicVerify (V b) [7] (5, false) (some [1, 2]) (5 * 261, true) = .err ∧
    basicVerify (V b) [7] (5, false) none (5 * 261, false) = .err ∧
    (V b).hash [1, 2] [7] ≠ 0 := by decide +kernel

/-- hypotheses of `C36_verify_iff`, `C36_complete`, `C36_unique` -/
example := C36_complete (V false) 5 (5, false) (by decide +kernel) [1, 2] [7] (by decide +kernel)

/-- aggregation of two signatures, repeated messages, and swapped signatures (accepted: only the sum
matters) -/
example : ∀ b,
    basicAggregateVerify (V b) [7] (keysOf (V b) [5, 6]) [[1], [2]] [(5 * 4, false), (6 * 5, false)] = .ok true ∧
    basicAggregateVerify (V b) [7] (keysOf (V b) [5, 6]) [[1], [2]] [(49, false), (1, false)] = .ok true ∧
    basicAggregateVerify (V b) [7] (keysOf (V b) [5, 6]) [[1], [2]] [(49, false), (2, false)] = .ok false ∧
    basicAggregateVerify (V b) [7] (keysOf (V b) [5, 6]) [[1], [1]] [(5 * 4, false), (6 * 4, false)] = .err ∧
    basicAggregateVerify (V b) [7] (keysOf (V b) [5, 6]) [[1]] [(5 * 4, false), (6 * 5, false)] = .err ∧
    (∀ sk ∈ ([5, 6] : List K), sk • (V b).E.g1 ≠ 0) := by decide +kernel

example := C36_aggregate_complete (V true) [7] [5, 6] [[1], [2]] (by decide +kernel) (by decide)
  rfl (by decide)

/-- the augmentation scheme: the empty message can be signed in one variant only -/
example : augSign (V false) [7] 5 [] = .err ∧ augSign (V true) [7] 5 [] = .ok (5 * 8, false) ∧
    augVerify (V false) [7] (5, false) [] (5 * 8, false) = .ok true ∧
    augSign (V false) [7] 5 [1] = .ok (5 * 1284, false) ∧
    augVerify (V false) [7] (5, false) [1] (5 * 1284, false) = .ok true ∧
    augAggregateVerify (V false) [7] (keysOf (V false) [5, 6]) [[1], [1]]
      [(5 * 1284, false), (6 * 1540, false)] = .ok true := by decide +kernel

/-- proofs of possession and multi-signatures -/
example : newSigPopWithDst [1] [1] = .err ∧ newSigPopWithDst [1] [2] = .ok ([1], [2]) ∧
    popProve (V false) [9] 5 = .ok (5 * 8, false) ∧
    popVerify (V false) [9] (5, false) (5 * 8, false) = .ok true ∧
    fastAggregateVerify (V false) [7] (keysOf (V false) [5, 6]) (some [1]) (11 * 4, false) = .ok true ∧
    fastAggregateVerify (V false) [7] (keysOf (V false) [5, 6]) (some [1]) (12 * 4, false) = .ok false ∧
    fastAggregateVerifyConstituent (V false) [7] (keysOf (V false) [5, 6]) (some [1])
      [(5 * 4, false), (6 * 4, false)] = .ok true := by decide +kernel

/-- hypotheses of `C36_fast_iff`, `C36_rogue_key` -/
example := C36_rogue_key (V true) [7] 5 9 [1] (by decide +kernel) (by decide +kernel)
example : ([5, 6] : List K).sum • (V true).E.g1 ≠ 0 := by decide +kernel

/-! ### threshold -/

/-- a 2-of-3 dealing of the key 7 with polynomial `7 + 250 x`, whose first share is zero -/
example : thresholdize (V false) 7 2 3 (fun _ => 250) =
    .ok [⟨1, [0, 0]⟩, ⟨2, [0, 250]⟩, ⟨3, [0, 243]⟩] := by decide +kernel

/-- two of the shares sign and combine to the ordinary signature -/
example : ([⟨1, [0, 0]⟩, ⟨3, [0, 243]⟩] : List KeyShare).mapM (fun s => partialSign (V false) [7] s [1, 2]) =
      (.ok [⟨1, (0, false)⟩, ⟨3, (243 * 261, false)⟩] : Res (List (Partial (K × Bool)))) ∧
    combineSigs (V false) [⟨1, (0, false)⟩, ⟨3, (243 * 261, false)⟩] = .ok (7 * 261, false) ∧
    createSignature (V false) 7 (some [1, 2]) [7] = .ok (7 * 261, false) := by
  refine ⟨?_, by decide +kernel, by decide +kernel⟩
  rfl

example := C37_threshold (V false) small257 7 2 3 (fun _ => 250)
  [⟨1, [0, 0]⟩, ⟨2, [0, 250]⟩, ⟨3, [0, 243]⟩] (by decide +kernel)
  [⟨3, [0, 243]⟩, ⟨1, [0, 0]⟩] (by decide +kernel) (by decide +kernel) (by decide) [1, 2] [7] (by decide)

/-- duplicates, a single partial, a point outside the subgroup -/
example : combineSigs (V false) [⟨3, (1, false)⟩, ⟨3, (1, false)⟩] = .err ∧
    combineSigs (V false) [⟨3, (1, false)⟩] = .err ∧
    combineSigs (V false) [⟨3, (1, false)⟩, ⟨2, (1, true)⟩] = .err := by decide +kernel

example := C37_tamper (V false) small257 [(1, 0)] [] 3 200 201 (by decide) (by decide) (by decide)
  (by decide) (by decide +kernel)
example := C37_identifier_zero (V false) small257 77 [(3, 5), (4, 6)] (by decide) (by decide) (by decide)

example : ∃ b, (⟨9, List.replicate 32 0⟩ : KeyShare).marshal = .ok b ∧ b.length = 33 ∧
    ((⟨9, List.replicate 32 0⟩ : KeyShare).identifier ≠ 0 → KeyShare.unmarshal b = .ok ⟨9, List.replicate 32 0⟩) :=
  C37_keyshare_roundtrip _ (by decide)
example : (⟨9, List.replicate 33 0⟩ : KeyShare).marshal = .panic := by decide +kernel

end Verif.Bls.Examples
