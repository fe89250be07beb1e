import Verif.Kagome.Su3Obs
/-
C120, continued: the dictionaries of KAGOME_SU3.
-/
namespace Verif.KagomeRdm
open Tensor Ctm Rdm Ctm.Spec Spec

theorem su3Obs2x2_eq {eigh : Tensor ℂ → List ℝ × Tensor ℂ} {m : Su3Couplings} {st : State ℂ} {env : Env ℂ} {X B H r : Tensor ℂ} {cd ed bd : ℂ × ℝ} {cu eu bu : ℂ} {g : List (List ℝ)} {a b c : ℝ}
    (eX : su3Chirality = some X) (eB : perm2Tri = some B) (eH : su3H m = some H) (e1 : dnTriangle st env (0, 0) X = .ok cd) (e2 : dnTriangle st env (0, 0) H = .ok ed)
    (e3 : dnTriangle st env (0, 0) B = .ok bd) (f : rdmUp eigh false st env (0, 0) = .ok r) (g1 : full6 r X = some cu) (g2 : full6 r H = some eu) (g3 : full6 r B = some bu)
    (eg : evalGenerators st env = .ok (g, [a, b, c])) :
    su3Obs2x2 eigh m st env = .ok [("e_t_dn", ed.1.re), ("e_t_up", eu.re), ("avg_bonds_dn", bd.1.re / 3), ("avg_bonds_up", bu.re / 3), ("chirality_dn", cd.1.re), ("chirality_up", cu.re),
      ("m2_A", a), ("m2_B", b), ("m2_C", c)] := by
  unfold su3Obs2x2
  rw [eX, eB, eH]
  show (dnTriangle st env (0, 0) X >>= _) = _
  rw [e1]
  show (dnTriangle st env (0, 0) H >>= _) = _
  rw [e2]
  show (dnTriangle st env (0, 0) B >>= _) = _
  rw [e3]
  show (rdmUp eigh false st env (0, 0) >>= _) = _
  rw [f]
  show (lift (full6 r X) >>= _) = _
  rw [g1]
  show (lift (full6 r H) >>= _) = _
  rw [g2]
  show (lift (full6 r B) >>= _) = _
  rw [g3]
  show (evalGenerators st env >>= _) = _
  rw [eg]
  rfl

theorem su3Obs_eq {eigh : Tensor ℂ → List ℝ × Tensor ℂ} {st : State ℂ} {env : Env ℂ} {X B r : Tensor ℂ} {n w1 w2 cd bd cu bu : ℂ} {g : List (List ℝ)} {a b c : ℝ}
    (eX : su3Chirality = some X) (eB : perm2Tri = some B) (e0 : trace1x1 st env (0, 0) (id3 3) = some n) (e1 : trace1x1 st env (0, 0) X = some w1) (q1 : ratio w1 n = .ok cd)
    (e2 : trace1x1 st env (0, 0) B = some w2) (q2 : ratio w2 n = .ok bd) (f : rdmUp eigh false st env (0, 0) = .ok r) (g1 : full6T r X = some cu) (g3 : full6T r B = some bu)
    (eg : evalGenerators st env = .ok (g, [a, b, c])) :
    su3Obs eigh st env = .ok [("avg_bonds_dn", bd.re / 3), ("avg_bonds_up", bu.re / 3), ("chirality_dn", cd.re), ("chirality_up", cu.re), ("m2_A", a), ("m2_B", b), ("m2_C", c)] := by
  unfold su3Obs
  rw [eX, eB, e0]
  show (lift (trace1x1 st env (0, 0) X) >>= _) = _
  rw [e1]
  show (ratio w1 n >>= _) = _
  rw [q1]
  show (lift (trace1x1 st env (0, 0) B) >>= _) = _
  rw [e2]
  show (ratio w2 n >>= _) = _
  rw [q2]
  show (rdmUp eigh false st env (0, 0) >>= _) = _
  rw [f]
  show (lift (full6T r X) >>= _) = _
  rw [g1]
  show (lift (full6T r B) >>= _) = _
  rw [g3]
  show (evalGenerators st env >>= _) = _
  rw [eg]
  rfl

/-- The values of `eval_obs_2x2subsystem`: energies, mean exchange of the bonds and chiralities of the down and the up triangle, and the squared lengths of the vectors of the
generators. -/
theorem C120_obs_2x2 (eigh : Tensor ℂ → List ℝ × Tensor ℂ) (m : Su3Couplings) {D : Dims} {st : State ℂ} {env : Env ℂ} (ht : Tiling st) (hs : FitsState D st) (he : FitsEnv D st env)
    (hp : ∀ c, D.p c = 3 ^ 3) (hc : (0, 0) ∈ st.keys) {R R1 : Tensor ℂ} (hR : rdm2x2 eigh false st env (0, 0) [0, 1, 2, 3] = .ok R) {sl : Bool}
    (hR1 : rdm1x1 eigh sl false st env (0, 0) none = .ok R1) :
    ∃ (ed eu bd bu cd cu : ℝ) (v : Fin 3 → Fin 8 → ℝ), su3Obs2x2 eigh m st env = .ok [("e_t_dn", ed), ("e_t_up", eu), ("avg_bonds_dn", bd), ("avg_bonds_up", bu), ("chirality_dn", cd),
        ("chirality_up", cu), ("m2_A", ∑ k, v 0 k ^ 2), ("m2_B", ∑ k, v 1 k ^ 2), ("m2_C", ∑ k, v 2 k ^ 2)] ∧
      (ed : ℂ) = Matrix.trace (reduced 3 4 R 0 1 2 * su3Triangle m) ∧ (eu : ℂ) = Matrix.trace (reduced 3 4 R 4 8 9 * su3Triangle m) ∧
      (bd : ℂ) = Matrix.trace (reduced 3 4 R 0 1 2 * swaps 3) / 3 ∧ (bu : ℂ) = Matrix.trace (reduced 3 4 R 4 8 9 * swaps 3) / 3 ∧
      (cd : ℂ) = Matrix.trace (reduced 3 4 R 0 1 2 * su3Chi) ∧ (cu : ℂ) = Matrix.trace (reduced 3 4 R 4 8 9 * su3Chi) ∧
      ∀ x k, (v x k : ℂ) = Matrix.trace (reduced 3 1 R1 0 1 2 * at' x (Su3.Spec.lambda k)) := by
  obtain ⟨v, hv, eg⟩ := C120_generators eigh ht hs he hp hc hR1
  obtain ⟨H, eH, hH⟩ := su3H_holds m
  obtain ⟨B, eB, hB⟩ := perm2Tri_holds
  obtain ⟨X, eX, hX⟩ := su3Chirality_holds
  obtain ⟨d1, n1, e1, v1⟩ := C115_down_hermitian eigh ht hs he hp (0, 0) (.inl hX) su3Chi_herm hR
  obtain ⟨d2, n2, e2, v2⟩ := C115_down_hermitian eigh ht hs he hp (0, 0) (.inl hH) (su3Triangle_herm m) hR
  obtain ⟨d3, n3, e3, v3⟩ := C115_down_hermitian eigh ht hs he hp (0, 0) (.inl hB) (swaps_herm 3) hR
  obtain ⟨R', f1, m1⟩ := C113_up eigh ht hs he hp (0, 0) hR
  have hh := holds_marginal (by decide) (by decide) (by decide) m1
  have g1 := full6_val hh hX
  have g2 := full6_val hh hH
  have g3 := full6_val hh hB
  have herm := reduced_isHerm eigh hs he hp (0, 0) hR 4 8 9
  have key : ∀ d : ℂ, ∀ w : ℂ, (d.re : ℂ) = w → ((d.re / 3 : ℝ) : ℂ) = w / 3 := by
    intro d w h
    push_cast
    rw [h]
  refine ⟨d2.re, _, d3.re / 3, _, d1.re, _, v, su3Obs2x2_eq eX eB eH e1 e2 e3 f1 g1 g2 g3 eg, v2, trace_real herm (su3Triangle_herm m), key _ _ v3, key _ _ (trace_real herm (swaps_herm 3)), v1, trace_real herm su3Chi_herm, hv⟩

/-- The values of `eval_obs` if the network of the site is Hermitian. `chirality_up` has the opposite sign. -/
theorem C120_obs (eigh : Tensor ℂ → List ℝ × Tensor ℂ) {D : Dims} {st : State ℂ} {env : Env ℂ} (ht : Tiling st) (hs : FitsState D st) (he : FitsEnv D st env)
    (hp : ∀ c, D.p c = 3 ^ 3) (hc : (0, 0) ∈ st.keys) (hh : HermitianSite 3 D st env (0, 0)) {R R1 : Tensor ℂ} (hR : rdm2x2 eigh false st env (0, 0) [0, 1, 2, 3] = .ok R) {sl : Bool}
    (hR1 : rdm1x1 eigh sl false st env (0, 0) none = .ok R1) :
    ∃ (bd bu cd cu : ℝ) (v : Fin 3 → Fin 8 → ℝ), su3Obs eigh st env = .ok [("avg_bonds_dn", bd / 3), ("avg_bonds_up", bu / 3), ("chirality_dn", cd),
        ("chirality_up", cu), ("m2_A", ∑ k, v 0 k ^ 2), ("m2_B", ∑ k, v 1 k ^ 2), ("m2_C", ∑ k, v 2 k ^ 2)] ∧
      bd = (Matrix.trace (reduced 3 1 R1 0 1 2 * swaps 3)).re ∧ (bu : ℂ) = Matrix.trace (reduced 3 4 R 4 8 9 * swaps 3) ∧
      cd = (Matrix.trace (reduced 3 1 R1 0 1 2 * su3Chi)).re ∧ (cu : ℂ) = -Matrix.trace (reduced 3 4 R 4 8 9 * su3Chi) ∧
      ∀ x k, (v x k : ℂ) = Matrix.trace (reduced 3 1 R1 0 1 2 * at' x (Su3.Spec.lambda k)) := by
  obtain ⟨v, hv, eg⟩ := C120_generators eigh ht hs he hp hc hR1
  obtain ⟨B, eB, hB⟩ := perm2Tri_holds
  obtain ⟨X, eX, hX⟩ := su3Chirality_holds
  obtain ⟨n, hn, h1, h2⟩ := one_site_herm eigh ht hs he hp (0, 0) hc hR1 hh
  have e0 := h1 _ (id3_one (p := 3))
  obtain ⟨w1, e1, q1⟩ := h2 X _ (.inl hX)
  obtain ⟨w2, e2, q2⟩ := h2 B _ (.inl hB)
  obtain ⟨R', f1, m1⟩ := C113_up eigh ht hs he hp (0, 0) hR
  have hm := holds_marginal (by decide) (by decide) (by decide) m1
  have g1 := full6T_val hm hX
  have g3 := full6T_val hm hB
  rw [su3Chi_tr, mul_neg, Matrix.trace_neg] at g1
  rw [swaps_tr] at g3
  have herm := reduced_isHerm eigh hs he hp (0, 0) hR 4 8 9
  refine ⟨_, _, _, _, v, su3Obs_eq eX eB e0 e1 q1 e2 q2 f1 g1 g3 eg, rfl, trace_real herm (swaps_herm 3), rfl, ?_, hv⟩
  rw [Complex.neg_re, Complex.ofReal_neg, trace_real herm su3Chi_herm]

/-- The cubic Casimir operator on the down and the up triangle. -/
theorem C120_C2 (eigh : Tensor ℂ → List ℝ × Tensor ℂ) {D : Dims} {st : State ℂ} {env : Env ℂ} (ht : Tiling st) (hs : FitsState D st) (he : FitsEnv D st env)
    (hp : ∀ c, D.p c = 3 ^ 3) (hc : (0, 0) ∈ st.keys) (hh : HermitianSite 3 D st env (0, 0)) {R R1 : Tensor ℂ} (hR : rdm2x2 eigh false st env (0, 0) [0, 1, 2, 3] = .ok R) {sl : Bool}
    (hR1 : rdm1x1 eigh sl false st env (0, 0) none = .ok R1) :
    evalC2 eigh st env = .ok (Matrix.trace (reduced 3 1 R1 0 1 2 * casimir2), Matrix.trace (reduced 3 4 R 4 8 9 * casimir2)) := by
  obtain ⟨n, hn, h1, h2⟩ := one_site_herm eigh ht hs he hp (0, 0) hc hR1 hh
  have e0 := h1 _ (id3_one (p := 3))
  obtain ⟨w1, e1, q1⟩ := h2 c2T _ (.inl c2T_holds)
  obtain ⟨R', e2, hm⟩ := C113_plaquette eigh ht hs he hp (0, 0) [] ['B'] ['A'] ['C'] (by simp [Keep]) (by simp [Keep]) (by simp [Keep]) (by simp [Keep]) (by decide) hR
  rw [show kept [letters [], letters ['B'], letters ['A'], letters ['C']] = [4, 8, 9] by decide +kernel] at hm
  have g := full6_val (holds_marginal (by decide) (by decide) (by decide) hm) c2T_holds
  simp only [evalC2, e0, e1, q1, e2, g, lift, bind, Except.bind]
  rfl

theorem evalC1_eq {eigh : Tensor ℂ → List ℝ × Tensor ℂ} {st : State ℂ} {env : Env ℂ} {A B C r1 r2 r3 : Tensor ℂ} {n w1 w2 w3 a b c a' b' c' : ℂ}
    (e0 : trace1x1 st env (0, 0) (id3 3) = some n) (eA : on01 c1T = some A) (eB : on02 c1T = some B) (eC : on12 c1T = some C) (e1 : trace1x1 st env (0, 0) A = some w1) (q1 : ratio w1 n = .ok a)
    (e2 : trace1x1 st env (0, 0) B = some w2) (q2 : ratio w2 n = .ok b) (e3 : trace1x1 st env (0, 0) C = some w3) (q3 : ratio w3 n = .ok c)
    (f1 : rdm2x2Kagome eigh false st env (0, 0) [] ['B'] ['A'] [] = .ok r1) (f2 : rdm1x2Kagome eigh false st env (0, 0) ['B'] ['C'] = .ok r2)
    (f3 : rdm2x1Kagome eigh false st env (0, 0) ['A'] ['C'] = .ok r3) (g1 : full4T r1 c1T = some a') (g2 : full4T r2 c1T = some b') (g3 : full4T r3 c1T = some c') :
    evalC1 eigh st env = .ok [("C1_AB_dn", a), ("C1_BC_dn", c), ("C1_AC_dn", b), ("C1_AB_up", a'), ("C1_BC_up", b'), ("C1_AC_up", c'), ("total_C1_dn", a + c + b), ("total_C1_up", a' + b' + c')] := by
  simp only [evalC1, e0, eA, eB, eC, e1, e2, e3, q1, q2, q3, f1, f2, f3, g1, g2, g3, lift, bind, Except.bind, Option.bind]
  rfl

/-- What `eval_C1` returns: on the down triangle `AB`, `BC`, `AC` are the spins 01, 12, 02; on the bonds of the up triangles `A`, `B`, `C` are the spins 2, 1, 0. -/
theorem C120_C1 (eigh : Tensor ℂ → List ℝ × Tensor ℂ) {D : Dims} {st : State ℂ} {env : Env ℂ} (ht : Tiling st) (hs : FitsState D st) (he : FitsEnv D st env)
    (hp : ∀ c, D.p c = 3 ^ 3) (hc : (0, 0) ∈ st.keys) (hh : HermitianSite 3 D st env (0, 0)) {R R1 R21 R12 : Tensor ℂ} (hR : rdm2x2 eigh false st env (0, 0) [0, 1, 2, 3] = .ok R) {sl : Bool}
    (hR1 : rdm1x1 eigh sl false st env (0, 0) none = .ok R1) (hR21 : rdm2x1 eigh sl false st env (0, 0) = .ok R21) (hR12 : rdm1x2 eigh sl false st env (0, 0) = .ok R12) :
    ∃ td tu, evalC1 eigh st env = .ok [("C1_AB_dn", Matrix.trace (reduced 3 1 R1 0 1 2 * casimir1 0 1)), ("C1_BC_dn", Matrix.trace (reduced 3 1 R1 0 1 2 * casimir1 1 2)),
        ("C1_AC_dn", Matrix.trace (reduced 3 1 R1 0 1 2 * casimir1 0 2)), ("C1_AB_up", Matrix.trace (reduced2 3 4 R 4 8 * exchange1)),
        ("C1_BC_up", Matrix.trace (reduced2 3 2 R12 1 3 * exchange1)), ("C1_AC_up", Matrix.trace (reduced2 3 2 R21 2 3 * exchange1)), ("total_C1_dn", td), ("total_C1_up", tu)] ∧
      td = Matrix.trace (reduced 3 1 R1 0 1 2 * (casimir1 0 1 + casimir1 1 2 + casimir1 0 2)) ∧
      tu = Matrix.trace (reduced2 3 4 R 4 8 * exchange1) + Matrix.trace (reduced2 3 2 R12 1 3 * exchange1) + Matrix.trace (reduced2 3 2 R21 2 3 * exchange1) := by
  obtain ⟨n, hn, h1, h2⟩ := one_site_herm eigh ht hs he hp (0, 0) hc hR1 hh
  have e0 := h1 _ (id3_one (p := 3))
  obtain ⟨⟨A, eA, hA⟩, ⟨B, eB, hB⟩, ⟨C, eC, hC⟩⟩ := on_holds c1T_is
  rw [← casimir1_pairOn (by decide) (by decide)] at hA hB hC
  obtain ⟨w1, e1, q1⟩ := h2 A _ (.inl hA)
  obtain ⟨w2, e2, q2⟩ := h2 B _ (.inl hB)
  obtain ⟨w3, e3, q3⟩ := h2 C _ (.inl hC)
  obtain ⟨r1, f1, m1⟩ := C113_plaquette eigh ht hs he hp (0, 0) [] ['B'] ['A'] [] (by simp [Keep]) (by simp [Keep]) (by simp [Keep]) (by simp [Keep]) (by decide) hR
  rw [show kept [letters [], letters ['B'], letters ['A'], letters []] = [4, 8] by decide +kernel] at m1
  obtain ⟨r2, f2, m2⟩ := C113_column eigh ht hs he hp (0, 0) ['B'] ['C'] (by simp [Keep]) (by simp [Keep]) (by decide) sl hR12
  rw [show kept [letters ['B'], letters ['C']] = [1, 3] by decide +kernel] at m2
  obtain ⟨r3, f3, m3⟩ := C113_row eigh ht hs he hp (0, 0) ['A'] ['C'] (by simp [Keep]) (by simp [Keep]) (by decide) sl hR21
  rw [show kept [letters ['A'], letters ['C']] = [2, 3] by decide +kernel] at m3
  have g1 := full4T_val (by decide) m1 c1T_is exchange1_entry
  have g2 := full4T_val (by decide) m2 c1T_is exchange1_entry
  have g3 := full4T_val (by decide) m3 c1T_is exchange1_entry
  refine ⟨_, _, evalC1_eq e0 eA eB eC e1 q1 e2 q2 e3 q3 f1 f2 f3 g1 g2 g3, ?_, rfl⟩
  rw [mul_add, mul_add, Matrix.trace_add, Matrix.trace_add]

/-- The unit operator. -/
theorem i3_holds : ∃ T, einsum [(eyeT 3, [0, 3]), (eyeT 3, [1, 4]), (eyeT 3, [2, 5])] [0, 1, 2, 3, 4, 5] = some T ∧ Holds T (1 : Op3 ℂ 3) := by
  have hE : (eyeT 3).shape = [3, 3] := rfl
  obtain ⟨T, e, s, v⟩ := einsum6 (fun _ => 3) (fun _ _ => rfl) [(eyeT 3, [0, 3]), (eyeT 3, [1, 4]), (eyeT 3, [2, 5])] (by simp [hE]) (by simp)
  refine ⟨T, e, s, fun t u => ?_⟩
  rw [v]
  have hl : (([(eyeT 3, [0, 3]), (eyeT 3, [1, 4]), (eyeT 3, [2, 5])] : List (Tensor ℂ × List Nat)).flatMap Prod.snd).dedup.filter (fun l => l ∉ [0, 1, 2, 3, 4, 5]) = [] := by
    simp only [List.flatMap_cons, List.flatMap_nil]; decide
  rw [hl]
  simp only [sumOver, termOf, List.map_cons, List.map_nil, at6, List.getD_cons_zero, List.getD_cons_succ, List.prod_cons, List.prod_nil, mul_one, eye3_val, Matrix.one_apply, spins_ext, Su3.δ]
  split_ifs <;> simp_all

/-- What `energy_1site` returns: the energy of the down triangle of the site (0, 0) and the expectation value of the Hamiltonian with the opposite sign of `h` for the spins 1, 3, 11
of the plaquette, divided by the number of all spins of the cell. -/
theorem C120_energy_1site (eigh : Tensor ℂ → List ℝ × Tensor ℂ) (m : Su3Couplings) {D : Dims} {st : State ℂ} {env : Env ℂ} (ht : Tiling st) (hs : FitsState D st) (he : FitsEnv D st env)
    (hp : ∀ c, D.p c = 3 ^ 3) (hc : (0, 0) ∈ st.keys) (hh : HermitianSite 3 D st env (0, 0)) {R R1 : Tensor ℂ} (hR : rdm2x2 eigh false st env (0, 0) [0, 1, 2, 3] = .ok R) {sl : Bool}
    (hR1 : rdm1x1 eigh sl false st env (0, 0) none = .ok R1) :
    su3OneSite eigh m st env = .ok ((Matrix.trace (reduced 3 1 R1 0 1 2 * su3Triangle m) + Matrix.trace (reduced 3 4 R 1 3 11 * su3Triangle { m with h := -m.h })).re / (st.keys.length * 3)) := by
  obtain ⟨H, eH, hH⟩ := su3H_holds m
  obtain ⟨I, eI, hI⟩ := i3_holds
  obtain ⟨n, hn, h1, h2⟩ := one_site_herm eigh ht hs he hp (0, 0) hc hR1 hh
  have e0 := h1 _ (.inl hI)
  obtain ⟨w1, e1, q1⟩ := h2 H _ (.inl hH)
  obtain ⟨R', e2, hm⟩ := C113_plaquette eigh ht hs he hp (0, 0) ['B'] ['C'] [] ['A'] (by simp [Keep]) (by simp [Keep]) (by simp [Keep]) (by simp [Keep]) (by decide) hR
  rw [show kept [letters ['B'], letters ['C'], letters [], letters ['A']] = [1, 3, 11] by decide +kernel] at hm
  obtain ⟨x, ex, hx⟩ := shifted_val (holds_marginal (by decide) (by decide) (by decide) hm) hH
  rw [su3Triangle_shift, su3Triangle_tr] at hx
  unfold su3OneSite
  rw [eH, eI]
  show (lift (trace1x1 st env (0, 0) I) >>= _) = _
  rw [e0]
  show (lift (trace1x1 st env (0, 0) H) >>= _) = _
  rw [e1]
  show (ratio w1 n >>= _) = _
  rw [q1]
  show (rdm2x2Kagome eigh false st env (0, 0) ['B'] ['C'] [] ['A'] >>= _) = _
  rw [e2]
  show (lift (einsum [(R', [0, 1, 2, 3, 4, 5]), (H, [2, 0, 1, 5, 3, 4])] []) >>= _) = _
  rw [ex, ← hx]
  rfl

end Verif.KagomeRdm
