import Verif.Accumulator.Props

/-! C34 for several epochs. -/

set_option linter.unusedSectionVars false

namespace Verif.Accumulator

universe u
variable {F G1 G2 GT : Type u} [Field F] [DecidableEq F] [AddCommGroup G1] [Module F G1]
  [DecidableEq G1] [AddCommGroup G2] [Module F G2] [DecidableEq G2] [CommGroup GT] [DecidableEq GT]

/-- One published epoch: additions, deletions and coefficients. -/
structure Epoch (F G1 : Type u) where
  adds : List F
  dels : List F
  coeffs : List G1

/-- the three argument lists of `MultiBatchUpdate` -/
def argA (es : List (Epoch F G1)) : List (Option (List F)) := es.map fun e => some e.adds
def argD (es : List (Epoch F G1)) : List (Option (List F)) := es.map fun e => some e.dels
def argC (es : List (Epoch F G1)) : List (List G1) := es.map fun e => e.coeffs

/-- The accumulator manager publishes these epochs by successive `Update` calls, ending at `V'`. -/
inductive Published (α : F) : G1 → List (Epoch F G1) → G1 → Prop
  | nil (V : G1) : Published α V [] V
  | cons (V V1 V' : G1) (e : Epoch F G1) (es : List (Epoch F G1))
      (h : update α V e.adds e.dels = .ok (V1, e.coeffs)) (t : Published α V1 es V') :
      Published α V (e :: es) V'

/-- what one epoch does to the witness point, as a formula -/
def stepC (y : F) (c : G1) (e : Epoch F G1) : G1 :=
  ((e.adds.map (· - y)).prod * (e.dels.map (· - y)).prod⁻¹) • c +
    (e.dels.map (· - y)).prod⁻¹ • evalG e.coeffs y

def fA (y : F) (e : Epoch F G1) : F := (e.adds.map (· - y)).prod
def fD (y : F) (e : Epoch F G1) : F := (e.dels.map (· - y)).prod

theorem factors_eq (y : F) (es : List (Epoch F G1)) :
    epochFactors y (argA es) (argD es) = .ok (es.map fun e => (fA y e, fD y e)) := by
  induction es with
  | nil => rfl
  | cons e es ih =>
    rw [epochFactors] at ih ⊢
    simp only [argA, argD, List.map_cons, List.zip_cons_cons, List.mapM_cons, dad_some,
      Res.bind_ok, Res.pure_eq] at ih ⊢
    rw [ih]; rfl

/-- the combination loop, over any list of triples `(dA, dD, Ω)` -/
def combine (ts : List ((F × F) × List G1)) (n : Nat) : List G1 :=
  (List.range n).foldl (fun p i =>
      ppAdd p (ppMul ((ts.map Prod.snd).getD i [])
        ((((ts.map Prod.fst).drop (i + 1)).foldl (fun r t => r * t.1) 1) *
        (((ts.map Prod.fst).take i).foldl (fun r t => r * t.2) 1)))) []

/-- The evaluated sum. -/
def total (y : F) (ts : List ((F × F) × List G1)) : G1 :=
  ((List.range ts.length).map fun i =>
    ((((ts.map Prod.fst).drop (i + 1)).map Prod.fst).prod *
      (((ts.map Prod.fst).take i).map Prod.snd).prod) •
      evalG ((ts.map Prod.snd).getD i []) y).sum

theorem combine_eval (y : F) (ts : List ((F × F) × List G1)) :
    evalG (combine ts ts.length) y = total y ts := by
  unfold combine total
  generalize ts.length = n
  induction n with
  | zero => simp [evalG]
  | succ n ih =>
    rw [List.range_succ, List.foldl_append, List.map_append, List.sum_append]
    simp only [List.foldl_cons, List.foldl_nil, List.map_cons, List.map_nil, List.sum_cons,
      List.sum_nil, add_zero]
    rw [evalG_ppAdd, ih, evalG_ppMul, foldl_mul (fun t : F × F => t.1), foldl_mul (fun t : F × F => t.2)]
    simp only [one_mul]

theorem combine_length (ts : List ((F × F) × List G1)) (n : Nat) (hn : n ≤ ts.length) :
    combine ts n = [] ↔ ∀ t ∈ ts.take n, t.2 = [] := by
  induction n with
  | zero => simp [combine]
  | succ n ih =>
    have h1 := ih (by omega)
    have hlt : n < ts.length := by omega
    have h2 : combine ts (n + 1) = ppAdd (combine ts n) (ppMul ((ts.map Prod.snd).getD n [])
        ((((ts.map Prod.fst).drop (n + 1)).foldl (fun r t => r * t.1) 1) *
        (((ts.map Prod.fst).take n).foldl (fun r t => r * t.2) 1))) := by
      rw [combine, List.range_succ, List.foldl_append]; rfl
    rw [h2, ← List.length_eq_zero_iff, length_ppAdd, ppMul, List.length_map,
      List.take_add_one, List.getElem?_eq_getElem hlt]
    have h3 : (ts.map Prod.snd).getD n [] = ts[n].2 := by
      simp [List.getD_eq_getElem?_getD, hlt]
    rw [h3]
    have h4 : max (combine ts n).length ts[n].2.length = 0 ↔
        combine ts n = [] ∧ ts[n].2 = [] := by
      rw [← List.length_eq_zero_iff, ← List.length_eq_zero_iff]; omega
    rw [h4, h1]
    simp only [Option.toList_some, List.mem_append, List.mem_singleton]
    constructor
    · rintro ⟨a, b⟩ t (ht | rfl)
      · exact a t ht
      · exact b
    · intro h
      exact ⟨fun t ht => h t (Or.inl ht), h _ (Or.inr rfl)⟩

/-- Closed form of the unrolled epochs. -/
theorem total_cons (y : F) (t : (F × F) × List G1) (ts : List ((F × F) × List G1)) :
    total y (t :: ts) = ((ts.map fun t => t.1.1).prod) • evalG t.2 y + t.1.2 • total y ts := by
  unfold total
  rw [List.length_cons, List.range_succ_eq_map, List.map_cons, List.sum_cons, List.map_map]
  congr 1
  · simp only [List.map_cons, List.drop_succ_cons, List.drop_zero, List.take_zero, List.map_nil,
      List.prod_nil, mul_one, List.getD_cons_zero, List.map_map]
    rfl
  · rw [List.smul_sum, List.map_map]
    congr 1
    apply List.map_congr_left
    intro i _
    simp only [Function.comp_apply, List.map_cons, List.drop_succ_cons, Nat.succ_eq_add_one,
      List.take_succ_cons, List.prod_cons, List.getD_cons_succ, smul_smul]
    congr 1
    ring

theorem unroll (y : F) (es : List (Epoch F G1)) (c : G1) (hd : ∀ e ∈ es, fD y e ≠ 0) :
    es.foldl (stepC y) c =
      (((es.map (fA y)).prod * ((es.map (fD y)).prod)⁻¹) • c +
      ((es.map (fD y)).prod)⁻¹ • total y (es.map fun e => ((fA y e, fD y e), e.coeffs)) : G1) := by
  induction es generalizing c with
  | nil => simp [total]
  | cons e es ih =>
    have h1 := hd e (by simp)
    have h2 : ((es.map (fD y)).prod) ≠ 0 := by
      rw [Ne, List.prod_eq_zero_iff, List.mem_map]
      rintro ⟨e', he', h0⟩
      exact hd e' (by simp [he']) h0
    rw [List.foldl_cons, ih _ (fun e' he' => hd e' (by simp [he'])), List.map_cons (l := es),
      List.map_cons (l := es), List.map_cons (l := es), total_cons]
    simp only [List.prod_cons, stepC, List.map_map]
    have h3 : ((fun t : (F × F) × List G1 => t.1.1) ∘ fun e : Epoch F G1 => ((fA y e, fD y e), e.coeffs))
        = fA y := rfl
    rw [h3]
    change _ • ((fA y e * (fD y e)⁻¹) • c + (fD y e)⁻¹ • evalG e.coeffs y) + _ = _
    generalize fA y e = A at *
    generalize fD y e = D at *
    generalize (es.map (fD y)).prod = DD at *
    generalize (es.map (fA y)).prod = AA at *
    have e1 : (D * DD)⁻¹ * D = DD⁻¹ := by field_simp
    have e2 : (D * DD)⁻¹ * AA = AA * DD⁻¹ * D⁻¹ := by rw [mul_inv]; ring
    have e3 : AA * DD⁻¹ * (A * D⁻¹) = A * AA * (D * DD)⁻¹ := by rw [mul_inv]; ring
    rw [smul_add, smul_add, smul_smul, smul_smul, smul_smul, smul_smul, e1, e2, e3]
    abel

theorem evaluateDeltas_eq (y : F) (es : List (Epoch F G1)) (hd : ∀ e ∈ es, y ∉ e.dels)
    (hne : ∃ e ∈ es, e.coeffs ≠ []) :
    evaluateDeltas y (argA es) (argD es) (argC es) =
      .ok ⟨(es.map (fA y)).prod * ((es.map (fD y)).prod)⁻¹,
        ((es.map (fD y)).prod)⁻¹ • total y (es.map fun e => ((fA y e, fD y e), e.coeffs))⟩ := by
  have hD : (es.map (fD y)).prod ≠ 0 := by
    rw [Ne, List.prod_eq_zero_iff, List.mem_map]
    rintro ⟨e', he', h0⟩
    exact prod_sub_ne_zero.mpr (hd e' he') h0
  rw [evaluateDeltas, if_neg (by simp [argA, argD, argC]), factors_eq]
  simp only [Res.bind_ok]
  rw [foldl_mul (fun t : F × F => t.2), foldl_mul (fun t : F × F => t.1)]
  simp only [one_mul, List.map_map]
  have h2 : ((fun t : F × F => t.2) ∘ fun e : Epoch F G1 => (fA y e, fD y e)) = fD y := rfl
  have h1 : ((fun t : F × F => t.1) ∘ fun e : Epoch F G1 => (fA y e, fD y e)) = fA y := rfl
  rw [h1, h2, invert, if_neg hD]
  simp only [Res.bind_ok]
  have hcomb : (List.range (argA es).length).foldl (fun p i =>
      ppAdd p (ppMul ((argC es).getD i [])
        ((((es.map fun e => (fA y e, fD y e)).drop (i + 1)).foldl (fun r t => r * t.1) 1) *
        (((es.map fun e => (fA y e, fD y e)).take i).foldl (fun r t => r * t.2) 1)))) [] =
      combine (es.map fun e => ((fA y e, fD y e), e.coeffs)) es.length := by
    rw [combine]
    simp only [List.map_map, argA, argC, List.length_map]
    rfl
  rw [hcomb]
  have hl : es.length = (es.map fun e => ((fA y e, fD y e), e.coeffs)).length := by simp
  have hn : combine (es.map fun e => ((fA y e, fD y e), e.coeffs)) es.length ≠ [] := by
    rw [hl, Ne, combine_length _ _ le_rfl, List.take_length]
    intro hc
    obtain ⟨e, he, h0⟩ := hne
    exact h0 (hc ((fA y e, fD y e), e.coeffs) (List.mem_map.mpr ⟨e, he, rfl⟩))
  rw [evaluate_eq _ _ hn]
  simp only [Res.bind_ok]
  conv_lhs => rw [hl]
  rw [combine_eval]

/-- **C34.** `MultiBatchUpdate` over any number of epochs is the composition of the single
`BatchUpdate`s, epoch by epoch (each non-empty, none deleting the element). -/
theorem C34_multi_is_sequence (es : List (Epoch F G1)) (w : Witness F G1) (hes : es ≠ [])
    (hd : ∀ e ∈ es, w.y ∉ e.dels) (hc : ∀ e ∈ es, e.coeffs ≠ []) :
    multiBatchUpdate w (argA es) (argD es) (argC es) =
      es.foldlM (fun w e => batchUpdate w (some e.adds) (some e.dels) e.coeffs) w := by
  obtain ⟨e0, he0⟩ := List.exists_mem_of_ne_nil es hes
  rw [multiBatchUpdate, evaluateDeltas_eq w.y es hd ⟨e0, he0, hc e0 he0⟩]
  simp only [Res.bind_ok, applyDelta]
  rw [← unroll w.y es w.c (fun e he => prod_sub_ne_zero.mpr (hd e he))]
  symm
  clear hes he0
  suffices ∀ (c : G1) (y : F), (∀ e ∈ es, y ∉ e.dels) →
      es.foldlM (fun w e => batchUpdate w (some e.adds) (some e.dels) e.coeffs) (⟨c, y⟩ : Witness F G1)
        = Res.ok ⟨es.foldl (stepC y) c, y⟩ from this w.c w.y hd
  intro c y hy
  induction es generalizing c with
  | nil => rfl
  | cons e es ih =>
    rw [List.foldlM_cons, batch_eq y e.adds e.dels e.coeffs (hy e (by simp)) (hc e (by simp)) _ rfl]
    exact ih (fun e' h' => hd e' (by simp [h'])) (fun e' h' => hc e' (by simp [h'])) _
      (fun e' h' => hy e' (by simp [h']))

/-- **C34.** Over any number of published epochs, at least one of them non-empty and none deleting the
element, `MultiBatchUpdate` succeeds and turns a witness for the first accumulator value into one for
the last. -/
theorem C34_multi (α : F) (V V' : G1) (es : List (Epoch F G1)) (w : Witness F G1)
    (hp : Published α V es V') (hd : ∀ e ∈ es, w.y ∉ e.dels)
    (hne : ∃ e ∈ es, e.adds ≠ [] ∨ e.dels ≠ []) (hw : (w.y + α) • w.c = V) :
    ∃ w', multiBatchUpdate w (argA es) (argD es) (argC es) = .ok w' ∧ w'.y = w.y ∧
      (w'.y + α) • w'.c = V' := by
  have hlen : ∀ e ∈ es, e.coeffs.length = max e.adds.length e.dels.length := by
    clear hd hne hw
    induction hp with
    | nil => simp
    | cons V V1 V' e es h t ih =>
      intro e' he'
      rcases List.mem_cons.mp he' with rfl | h'
      · exact update_coeffs_length _ _ _ _ _ _ h
      · exact ih e' h'
  have hne' : ∃ e ∈ es, e.coeffs ≠ [] := by
    obtain ⟨e, he, h0⟩ := hne
    refine ⟨e, he, List.length_pos_iff.mp ?_⟩
    rw [hlen e he]
    rcases h0 with h0 | h0
    · have := List.length_pos_iff.mpr h0; omega
    · have := List.length_pos_iff.mpr h0; omega
  rw [multiBatchUpdate, evaluateDeltas_eq w.y es hd hne']
  simp only [Res.bind_ok, applyDelta]
  rw [← unroll w.y es w.c (fun e he => prod_sub_ne_zero.mpr (hd e he))]
  refine ⟨_, rfl, rfl, ?_⟩
  clear hne hne' hlen
  suffices ∀ c : G1, (w.y + α) • c = V → (w.y + α) • es.foldl (stepC w.y) c = V' from this w.c hw
  clear hw
  induction hp with
  | nil => intro c hc; exact hc
  | cons V V1 V' e es h t ih =>
    intro c hc
    rw [List.foldl_cons]
    refine ih (fun e' h' => hd e' (by simp [h'])) (stepC w.y c e) ?_
    have := epoch_rel α V V1 e.adds e.dels e.coeffs c w.y h (hd e (by simp))
    rw [hc, sub_self, smul_zero, sub_eq_zero] at this
    exact this

/-- **C34.** If the element was deleted in any of the epochs, `MultiBatchUpdate` returns an error. -/
theorem C34_multi_deleted_fails (es : List (Epoch F G1)) (w : Witness F G1)
    (h : ∃ e ∈ es, w.y ∈ e.dels) :
    multiBatchUpdate w (argA es) (argD es) (argC es) = .err := by
  have hD : (es.map (fD w.y)).prod = 0 := by
    rw [List.prod_eq_zero_iff, List.mem_map]
    obtain ⟨e, he, h0⟩ := h
    refine ⟨e, he, ?_⟩
    by_contra hn
    exact prod_sub_ne_zero.mp hn h0
  rw [multiBatchUpdate, evaluateDeltas, if_neg (by simp [argA, argD, argC]), factors_eq]
  simp only [Res.bind_ok]
  rw [foldl_mul (fun t : F × F => t.2)]
  simp only [one_mul, List.map_map]
  have h2 : ((fun t : F × F => t.2) ∘ fun e : Epoch F G1 => (fA w.y e, fD w.y e)) = fD w.y := rfl
  rw [h2, invert, if_pos hD]; rfl

/-- Mismatched argument lists and nil slices are rejected, never mis-paired. -/
theorem C34_multi_lengths (w : Witness F G1) (A D : List (Option (List F))) (C : List (List G1))
    (h : A.length ≠ D.length ∨ A.length ≠ C.length) : multiBatchUpdate w A D C = .err := by
  rw [multiBatchUpdate, evaluateDeltas, if_pos h]; rfl

/-- With no epoch, or only empty ones, `MultiBatchUpdate` panics rather than returning the witness. -/
theorem C34_multi_empty_panics (w : Witness F G1) (n : Nat) :
    multiBatchUpdate w (argA (List.replicate n (⟨[], [], []⟩ : Epoch F G1)))
      (argD (List.replicate n (⟨[], [], []⟩ : Epoch F G1)))
      (argC (List.replicate n (⟨[], [], []⟩ : Epoch F G1))) = .panic := by
  generalize hes : List.replicate n (⟨[], [], []⟩ : Epoch F G1) = es
  have hall : ∀ e ∈ es, e = ⟨[], [], []⟩ := by
    intro e he; rw [← hes] at he; exact (List.mem_replicate.mp he).2
  rw [multiBatchUpdate, evaluateDeltas, if_neg (by simp [argA, argD, argC]), factors_eq]
  simp only [Res.bind_ok]
  rw [foldl_mul (fun t : F × F => t.2)]
  simp only [one_mul, List.map_map]
  have h2 : ((fun t : F × F => t.2) ∘ fun e : Epoch F G1 => (fA w.y e, fD w.y e)) = fD w.y := rfl
  have hD : (es.map (fD w.y)).prod ≠ 0 := by
    rw [Ne, List.prod_eq_zero_iff, List.mem_map]
    rintro ⟨e, he, h0⟩
    rw [hall e he] at h0
    simp [fD] at h0
  rw [h2, invert, if_neg hD]
  simp only [Res.bind_ok]
  have hcomb : (List.range (argA es).length).foldl (fun p i =>
      ppAdd p (ppMul ((argC es).getD i [])
        ((((es.map fun e => (fA w.y e, fD w.y e)).drop (i + 1)).foldl (fun r t => r * t.1) 1) *
        (((es.map fun e => (fA w.y e, fD w.y e)).take i).foldl (fun r t => r * t.2) 1)))) [] =
      combine (es.map fun e => ((fA w.y e, fD w.y e), e.coeffs)) es.length := by
    rw [combine]
    simp only [List.map_map, argA, argC, List.length_map]
    rfl
  rw [hcomb]
  have hl : es.length = (es.map fun e => ((fA w.y e, fD w.y e), e.coeffs)).length := by simp
  have hn : combine (es.map fun e => ((fA w.y e, fD w.y e), e.coeffs)) es.length = [] := by
    rw [hl, combine_length _ _ le_rfl, List.take_length]
    intro t ht
    obtain ⟨e, he, rfl⟩ := List.mem_map.mp ht
    rw [hall e he]
  rw [hn]
  rfl

end Verif.Accumulator
