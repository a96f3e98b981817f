import Verif.Native.PallasHash

/-!
# Concrete cases for the theorems about Pallas (C82–C86)
-/

set_option maxRecDepth 20000

namespace Verif.Native.Pallas
open Verif.Bytes Weier

/-- C82: seven times the generator. -/
example : ERep (mul generator (Field.setUint64 PastaFq.arith 7)) (((7 : Nat) : ZMod q).val • G) :=
  C82_mul C83_generator (C50_setUint64 LQ 7)

/-- C82: a sum of two products, one of them with the doubled generator; and a mismatch of lengths. -/
example : (∃ e, sumOfProducts [generator, double generator] [Field.setUint64 PastaFq.arith 3, Field.setUint64 PastaFq.arith 1000] = some e ∧
      ERep e (((3 : Nat) : ZMod q).val • G + (((1000 : Nat) : ZMod q).val • (G + G) + 0))) ∧
    sumOfProducts [generator] [] = none := by
  have key := C82_sumOfProducts [(generator, G, Field.setUint64 PastaFq.arith 3, ((3 : Nat) : ZMod q)),
    (double generator, G + G, Field.setUint64 PastaFq.arith 1000, ((1000 : Nat) : ZMod q))] (by
      intro t ht
      rcases List.mem_cons.1 ht with rfl | ht
      · exact ⟨C83_generator, C50_setUint64 LQ 3⟩
      · obtain rfl := List.mem_singleton.1 ht
        exact ⟨double_spec C83_generator, C50_setUint64 LQ 1000⟩)
  exact ⟨key.1, (key.2 _ _).2 (by decide)⟩

/-- C83: different multiples of the generator are different. -/
example : equal (mul generator (Field.setUint64 PastaFq.arith 3)) (mul generator (Field.setUint64 PastaFq.arith 4)) = false := by
  rw [← Bool.not_eq_true, C83_mul_injective C83_generator (by decide +kernel) (C50_setUint64 LQ 3) (C50_setUint64 LQ 4)]
  decide +kernel

theorem one_accepted : Accepted p ((1 : Nat) : ZMod p).val := by
  rw [val_of_lt (by decide +kernel)]
  exact Or.inl (by decide +kernel)

/-- C84: the generator survives the round trip. -/
example : ∃ e', fromCompressed (toCompressed generator) = .ok e' ∧ ERep e' G := (C84_roundtrip C83_generator).1 one_accepted

theorem coords_G : Coords G := by
  refine ⟨?_, ?_⟩
  · show Accepted p ((((1 : Nat) : ZMod p).val : Nat) : Int).toNat
    rw [Int.toNat_natCast]
    exact one_accepted
  · show Accepted p ((((gy : Nat) : ZMod p).val : Nat) : Int).toNat
    rw [Int.toNat_natCast, val_of_lt (by decide +kernel)]
    unfold Accepted
    decide +kernel

/-- C85: `Set` on the coordinates of the generator and on `(1, 0)`. -/
example : (∃ e, set 1 (gy : Int) = .ok e) ∧ (∃ e y h, set 1 0 = .ok e ∧ ERep e (.some ((1 : Int) : ZMod p) y h) ∧ y.val % 2 = 0) := by
  have he := eqn_of_nat (x := 1) (y := gy) (by decide +kernel)
  have h5 := eqn5.1 he
  have hi : ((1 : Int) : ZMod p) = ((1 : Nat) : ZMod p) := by rw [Int.cast_one, Nat.cast_one]
  refine ⟨(C85_set 1 (gy : Int) (by decide +kernel)).2.1 (Or.inl (by decide +kernel)) (by unfold Accepted; decide +kernel) ?_, ?_⟩
  · rw [hi, Int.cast_natCast]
    exact h5
  · exact (C85_set_zero 1).2.1 (by decide) (Or.inl (by decide +kernel)) ⟨_, by rw [← pow_two, hi, ← h5]⟩

/-- C85: `256·G` and a sum of coordinates. -/
example : curveScalarMult (aff G).1 (aff G).2 [1, 0] = .ok (aff (256 • G)) ∧
    curveAdd (aff G).1 (aff G).2 (aff G).1 (aff G).2 = .ok (aff (G + G)) :=
  ⟨(C85_scalarMult coords_G [1, 0] (Or.inl (by decide +kernel))).1, (C85_add_double coords_G coords_G).1⟩

/-- C86: the exceptional argument `0` of the map. -/
example : ∃ x y, Rep p (mapSswu Field.zero).X x ∧ Rep p (mapSswu Field.zero).Y y ∧
    x = (ib : ZMod p) / (sz * (ia : ZMod p)) ∧ y.val % 2 = 0 := by
  obtain ⟨x, y, hx, hy, -, hs⟩ := C86_sswu (u := Field.zero) (w := 0) (C50_constants LP).2
  have hc : Sswu.cand1 (ia : ZMod p) (ib : ZMod p) sz 0 = (ib : ZMod p) / (sz * (ia : ZMod p)) := by
    unfold Sswu.cand1
    dsimp only
    rw [if_pos (by ring)]
  refine ⟨x, y, hx, hy, ?_, ?_⟩
  · rcases hs.1 with ⟨_, h⟩ | ⟨h, _⟩
    · rw [h, hc]
    · rw [hc] at h
      exact absurd exc_square h
  · have := hs.2.2.resolve_left (ordinate_ne hs.2.1)
    unfold sgn at this
    rw [this, ZMod.val_zero]

/-- C86: a hash with a 64-byte digest. -/
example (h : List UInt8 → List UInt8) (hl : ∀ m, (h m).length = 64) : ∃ e P, hash ⟨h, 64, 128, hl, by decide⟩ [1, 2, 3] = .ok e ∧ ERep e P := by
  obtain ⟨e, P, Q, h1, h2, -⟩ := C86_hash ⟨h, 64, 128, hl, by decide⟩ (by show 64 ≤ 255; decide) [1, 2, 3]
  exact ⟨e, _, h1, h2⟩

end Verif.Native.Pallas
