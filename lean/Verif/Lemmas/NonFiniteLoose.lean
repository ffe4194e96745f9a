import Verif.Lemmas.NonFiniteExact

/-!
# A step that is accepted although an entry is infinite
-/

set_option linter.unusedSectionVars false

namespace Verif

open Matrix

theorem fin2_list : (Finset.univ : Finset (Fin 2)).toList = [0, 1] ∨ (Finset.univ : Finset (Fin 2)).toList = [1, 0] := by
  have hp : (Finset.univ : Finset (Fin 2)).toList.Perm [0, 1] := by
    rw [List.perm_ext_iff_of_nodup (Finset.nodup_toList _) (by decide)]
    intro a; fin_cases a <;> simp
  have hl := hp.length_eq
  match h : (Finset.univ : Finset (Fin 2)).toList, hl with
  | [a, b], _ =>
    rw [h] at hp
    fin_cases a <;> fin_cases b <;> simp at hp ⊢ <;> exact absurd hp (by decide)

/-- Settings with a negative `adapt_cutoff`. -/
noncomputable def loose : SolverConfig ℝ := ⟨1 / 10, 5 / 4, 85 / 100, 4 / 5, -1, 1 / 1000⟩

theorem loose_factor :
    ∃ x, flComputeS .fin 4 loose ![⟨.pinf, .nan⟩, .ofComplex 5] ![.ofComplex 0, .ofComplex (1 / 600)] = .fin x ∧ 1 ≤ x := by
  have ha : CFl.abs .fin ⟨.pinf, .nan⟩ = .pinf := rfl
  have hmx : flMax ((Finset.univ : Finset (Fin 2)).toList.map fun i =>
      CFl.abs .fin ((![⟨.pinf, .nan⟩, .ofComplex 5] : Fin 2 → CFl) i)) = .pinf := by
    rcases fin2_list with h | h <;> rw [h] <;> simp [CFl.ofComplex_abs, flMax, ha, Ext.max, Ext.lt]
  have hsel : ((Finset.univ : Finset (Fin 2)).toList.filter fun i => Ext.lt (.fin loose.adapt_cutoff)
      (.div .fin (CFl.abs .fin ((![⟨.pinf, .nan⟩, .ofComplex 5] : Fin 2 → CFl) i)) .pinf)) = [1] := by
    rcases fin2_list with h | h <;> rw [h] <;> simp [List.filter, CFl.ofComplex_abs, ha, Ext.div, Ext.lt, loose]
  have hn : ∀ z : ℂ, flNorm .fin [.ofComplex z] = .fin ‖z‖ := fun z => by
    have := flNorm_exact [z]
    simpa using this
  unfold flComputeS
  simp only [hmx, hsel, List.map_cons, List.map_nil, Matrix.cons_val_one, Matrix.cons_val_zero, hn]
  refine ⟨4 / 5 * 300 ^ (1 / 4 : ℝ), ?_, ?_⟩
  · simp [Ext.mul, Ext.div, Ext.power, loose]
    norm_num
  · have : (2 : ℝ) ≤ 300 ^ (1 / 4 : ℝ) := by
      calc (2 : ℝ) = (2 ^ 4) ^ (1 / 4 : ℝ) := by
            rw [← Real.rpow_natCast, ← Real.rpow_mul (by norm_num)]; norm_num
        _ ≤ 300 ^ (1 / 4 : ℝ) := Real.rpow_le_rpow (by norm_num) (by norm_num) (by norm_num)
    linarith

/-- 6, except that it is 0 at 4 and slightly less than 6 at 5; zero in the first entry. -/
noncomputable def wild (w : Fin 2 → CFl) : Except PyErr (Fin 2 → CFl) := open Classical in
  .ok ![.ofComplex 0, if w 1 = .ofComplex 4 then .ofComplex 0 else if w 1 = .ofComplex 5 then .ofComplex (6 - 1 / 100) else .ofComplex 6]

theorem wild_other (a : CFl) {z : ℂ} (h4 : z ≠ 4) (h5 : z ≠ 5) : wild ![a, .ofComplex z] = .ok ![.ofComplex 0, .ofComplex 6] := by
  have inj : ∀ x y : ℂ, CFl.ofComplex x = CFl.ofComplex y ↔ x = y := by
    intro x y
    simp [CFl.ofComplex, Complex.ext_iff]
  simp [wild, inj, h4, h5]

theorem wild_four (a : CFl) : wild ![a, .ofComplex 4] = .ok ![.ofComplex 0, .ofComplex 0] := by simp [wild]

theorem wild_five (a : CFl) : wild ![a, .ofComplex 5] = .ok ![.ofComplex 0, .ofComplex (6 - 1 / 100)] := by
  have : CFl.ofComplex 5 ≠ CFl.ofComplex 4 := by simp [CFl.ofComplex]
  simp [wild, this]

theorem floats_add2 (a b c d : CFl) : (ArrOps.floats .fin CFl.ofComplex).add ![a, b] ![c, d] = .ok ![a.add .fin c, b.add .fin d] := by
  simp only [ArrOps.floats]; congr 1; funext i; fin_cases i <;> rfl
theorem floats_sub2 (a b c d : CFl) : (ArrOps.floats .fin CFl.ofComplex).sub ![a, b] ![c, d] = .ok ![a.sub .fin c, b.sub .fin d] := by
  simp only [ArrOps.floats]; congr 1; funext i; fin_cases i <;> rfl
theorem floats_mul2 (a b c d : CFl) : (ArrOps.floats .fin CFl.ofComplex).mul ![a, b] ![c, d] = .ok ![a.mul .fin c, b.mul .fin d] := by
  simp only [ArrOps.floats]; congr 1; funext i; fin_cases i <;> rfl
theorem floats_quot2 (a b : CFl) (n : ℕ) : (ArrOps.floats .fin CFl.ofComplex).quot ![a, b] n = .ok ![a.quot .fin n, b.quot .fin n] := by
  simp only [ArrOps.floats]; congr 1; funext i; fin_cases i <;> rfl
theorem floats_scalar2 (z : ℂ) : (ArrOps.floats .fin CFl.ofComplex : ArrOps (Fin 2) _).scalar z = ![.ofComplex z, .ofComplex z] := by
  simp only [ArrOps.floats]; funext i; fin_cases i <;> rfl
theorem floats_one2 : (ArrOps.floats .fin CFl.ofComplex : ArrOps (Fin 2) _).vec 1 = ![.ofComplex 1, .ofComplex 1] := by
  simp only [ArrOps.floats]; funext i; fin_cases i <;> rfl

theorem inf_add (z : ℂ) : CFl.add .fin ⟨.pinf, .nan⟩ (.ofComplex z) = ⟨.pinf, .nan⟩ := rfl
theorem one_inf : CFl.mul .fin (.ofComplex 1) ⟨.pinf, .fin 0⟩ = ⟨.pinf, .nan⟩ := by
  simp [CFl.mul, CFl.ofComplex, Ext.mul, Ext.sub, Ext.add, Ext.neg, Ext.infTimes]

theorem wild_trial : (ASSolver.if34 (.diag (0 : Vec (Fin 2)))).rprog.aTrial
    ⟨ArrOps.floats .fin CFl.ofComplex, fun _ => .ok (⟨1, 1⟩ : IFCoef (Vec (Fin 2)))⟩ flCheck wild 1 ![⟨.pinf, .fin 0⟩, .ofComplex 1] =
    .ok (![⟨.pinf, .nan⟩, .ofComplex 5], ![.ofComplex 0, .ofComplex (1 / 600)]) := by
  have w0 : ∀ a, wild ![a, .ofComplex 1] = .ok ![.ofComplex 0, .ofComplex 6] := fun a => wild_other a (by norm_num) (by norm_num)
  have w1 : ∀ a, wild ![a, .ofComplex (1 + 6 / 2)] = .ok ![.ofComplex 0, .ofComplex 0] := fun a => by
    rw [show (1 + 6 / 2 : ℂ) = 4 by norm_num]; exact wild_four a
  have w2 : ∀ a, wild ![a, .ofComplex (1 + 6)] = .ok ![.ofComplex 0, .ofComplex 6] := fun a =>
    wild_other a (by norm_num) (by norm_num)
  have w3 : ∀ a, wild ![a, .ofComplex (1 + (1 + 6 / 3 + 1))] = .ok ![.ofComplex 0, .ofComplex (6 - 1 / 100)] := fun a => by
    rw [show (1 + (1 + 6 / 3 + 1) : ℂ) = 5 by norm_num]; exact wild_five a
  have hsub : ∀ (x : Attr → Fin 2 → CFl) (c : IFCoef (Vec (Fin 2))) (a b : Attr), Exp.evalA (ArrOps.floats .fin CFl.ofComplex) c 1 x
      (Exp.var a - Exp.var b) = (ArrOps.floats .fin CFl.ofComplex).sub (x a) (x b) := fun _ _ _ _ => rfl
  unfold RASProg.aTrial RASProg.aload
  simp only [ASSolver.rprog, IF34.rProgDiagonal, avals, Except.bind, w0]
  simp [Exp.evalA, Except.bind, floats_add2, floats_sub2, floats_mul2, floats_quot2, floats_scalar2, floats_one2, one_inf, inf_add, w0, w1, w2,
    w3, flCheck, Except.map]
  erw [hsub]
  simp [floats_sub2, floats_mul2, floats_quot2, Except.bind]
  norm_num

end Verif
