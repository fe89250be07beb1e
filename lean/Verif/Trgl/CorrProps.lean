import Verif.Trgl.CorrModel
import Verif.Trgl.Props
import Verif.Energy.CorrLemmas
/-
C125: the correlation functions of the triangular models.
-/
namespace Verif.Trgl
open Tensor Ctm Rdm Models Spec

namespace Spec
variable {p : Nat}

/-- The site tensor with the operator `U` applied to its physical index. -/
noncomputable def turned (U : Su2.Op p) (a : Tensor ℂ) : Tensor ℂ := ⟨a.shape, fun idx => match idx with
  | [] => 0
  | s :: rest => if h : s < p then ∑ t : Fin p, U ⟨s, h⟩ t * a.val ((t : Nat) :: rest) else 0⟩

/-- The spiral over a state, with the pitch vector `q` in units of `2 pi`; the spin at `c0` is not rotated. The double layer network of the environment does not depend on unitary
operators on the physical indices. -/
noncomputable def spiralState (p : Nat) (q : ℝ × ℝ) (c0 : Coord) (N : Corrf.Spec.Tensors ℂ) : Corrf.Spec.Tensors ℂ :=
  { N with a := fun c => turned (turn p (2 * Real.pi * (q.1 * (c.1 - c0.1) + q.2 * (c.2 - c0.2)))) (N.a c) }

/-- The matrix elements of an operator. -/
def elements (O : Su2.Op p) : Corrf.Spec.Op ℂ := fun i j => if h : i < p ∧ j < p then O ⟨i, h.1⟩ ⟨j, h.2⟩ else 0

/-- `<A(c) B(c + (r+1) d)>`. -/
noncomputable def correlation (N : Corrf.Spec.Tensors ℂ) (D : Dims) (d : Dir) (c : Coord) (A B : Su2.Op p) (r : Nat) : ℂ :=
  Corrf.Spec.twoPoint N D d c (elements A) (elements B) r / Corrf.Spec.norm N D d c (r + 2)

end Spec

/-! ### Strips with the same double layers -/

section
variable {N : Corrf.Spec.Tensors ℂ} {D : Dims} {f : Coord → Tensor ℂ}

/-- The double layers of two rows of operators agree. -/
def Same (N : Corrf.Spec.Tensors ℂ) (f : Coord → Tensor ℂ) (d : Dir) : Coord → List (Corrf.Spec.Op ℂ) → List (Corrf.Spec.Op ℂ) → Prop
  | _, [], [] => True
  | c, o :: os, o' :: os' => Corrf.Spec.layer (N.a c) o = Corrf.Spec.layer (f c) o' ∧ Same N f d (Corrf.Spec.ahead d c 1) os os'
  | _, _, _ => False

theorem step_same (d : Dir) (c : Coord) {o o' : Corrf.Spec.Op ℂ} (h : Corrf.Spec.layer (N.a c) o = Corrf.Spec.layer (f c) o') (E : Corrf.Spec.Vec ℂ) :
    Corrf.Spec.step N D d c o E = Corrf.Spec.step { N with a := f } D d c o' E := by
  have hm : ∀ y m n y', Corrf.Spec.middle N d c o y m n y' = Corrf.Spec.middle { N with a := f } d c o' y m n y' := by
    intro y m n y'
    cases d <;> simp only [Corrf.Spec.middle, h]
  have hf : ∀ x m x', Corrf.Spec.first N d c x m x' = Corrf.Spec.first { N with a := f } d c x m x' := by intro x m x'; cases d <;> rfl
  have hg : ∀ x m x', Corrf.Spec.second N d c x m x' = Corrf.Spec.second { N with a := f } d c x m x' := by intro x m x'; cases d <;> rfl
  funext x y z
  simp only [Corrf.Spec.step, hm, hf, hg]

theorem grow_same (d : Dir) : ∀ (os os' : List (Corrf.Spec.Op ℂ)) (c : Coord) (E : Corrf.Spec.Vec ℂ), Same N f d c os os' →
    os.length = os'.length ∧ Corrf.Spec.grow N D d c os E = Corrf.Spec.grow { N with a := f } D d c os' E
  | [], [], _, _, _ => ⟨rfl, rfl⟩
  | o :: os, o' :: os', c, E, h => by
    obtain ⟨e1, e2⟩ := grow_same d os os' (Corrf.Spec.ahead d c 1) (Corrf.Spec.step N D d c o E) h.2
    refine ⟨by simp [e1], ?_⟩
    rw [Corrf.Spec.grow, Corrf.Spec.grow, e2, step_same d c h.1]
  | [], _ :: _, _, _, h => h.elim
  | _ :: _, [], _, _, h => h.elim

theorem network_same {d : Dir} {c : Coord} {os os' : List (Corrf.Spec.Op ℂ)} (h : Same N f d c os os') :
    Corrf.Spec.network N D d c os = Corrf.Spec.network { N with a := f } D d c os' := by
  obtain ⟨e1, e2⟩ := grow_same (D := D) d os os' c (Corrf.Spec.edge N D (Corrf.rev d) c) h
  have he : ∀ d c, Corrf.Spec.edge N D d c = Corrf.Spec.edge { N with a := f } D d c := by
    intro d c; funext x y z; cases d <;> rfl
  unfold Corrf.Spec.network
  rw [e2, e1, he, he]

theorem norm_same (ho : ∀ c, Corrf.Spec.layer (N.a c) Corrf.Spec.one = Corrf.Spec.layer (f c) Corrf.Spec.one) (d : Dir) (c : Coord) (n : Nat) :
    Corrf.Spec.norm N D d c n = Corrf.Spec.norm { N with a := f } D d c n := by
  refine network_same ?_
  induction n generalizing c with
  | zero => trivial
  | succ n ih => exact ⟨ho c, ih _⟩

theorem ahead_ahead (d : Dir) (c : Coord) (m : Nat) : Corrf.Spec.ahead d (Corrf.Spec.ahead d c 1) m = Corrf.Spec.ahead d c (m + 1) := by
  simp only [Corrf.Spec.ahead, Prod.mk.injEq]
  push_cast
  constructor <;> ring

theorem twoPoint_same (ho : ∀ c, Corrf.Spec.layer (N.a c) Corrf.Spec.one = Corrf.Spec.layer (f c) Corrf.Spec.one) {d : Dir} {c : Coord} {o1 o1' o2 o2' : Corrf.Spec.Op ℂ} {r : Nat}
    (h1 : Corrf.Spec.layer (N.a c) o1 = Corrf.Spec.layer (f c) o1')
    (h2 : Corrf.Spec.layer (N.a (Corrf.Spec.ahead d c (r + 1))) o2 = Corrf.Spec.layer (f (Corrf.Spec.ahead d c (r + 1))) o2') :
    Corrf.Spec.twoPoint N D d c o1 o2 r = Corrf.Spec.twoPoint { N with a := f } D d c o1' o2' r := by
  refine network_same ⟨h1, ?_⟩
  have : ∀ (n : Nat) (c : Coord), Corrf.Spec.layer (N.a (Corrf.Spec.ahead d c n)) o2 = Corrf.Spec.layer (f (Corrf.Spec.ahead d c n)) o2' →
      Same N f d c (List.replicate n Corrf.Spec.one ++ [o2]) (List.replicate n Corrf.Spec.one ++ [o2']) := by
    intro n
    induction n with
    | zero => intro c h; rw [Rdm.ahead_zero] at h; exact ⟨h, trivial⟩
    | succ n ih => intro c h; exact ⟨ho c, ih _ (by rw [ahead_ahead]; exact h)⟩
  exact this r _ (by rw [ahead_ahead]; exact h2)

end

/-! ### Rotated sites -/

section
variable {p : Nat}

theorem layer_elements {a : Tensor ℂ} (ha : a.size 0 = p) (O : Su2.Op p) (u l d r : Nat) : Corrf.Spec.layer a (elements O) u l d r =
    star (fun s : Fin p => a.val [(s : Nat), u % a.size 1, l % a.size 2, d % a.size 3, r % a.size 4]) ⬝ᵥ
      O.mulVec (fun s : Fin p => a.val [(s : Nat), u / a.size 1, l / a.size 2, d / a.size 3, r / a.size 4]) := by
  simp only [Corrf.Spec.layer, ha, Finset.sum_range, dotProduct, Matrix.mulVec, Finset.mul_sum]
  refine Finset.sum_congr rfl fun s _ => Finset.sum_congr rfl fun t _ => ?_
  simp [elements, mul_assoc]

theorem layer_one {a : Tensor ℂ} (ha : a.size 0 = p) : Corrf.Spec.layer a Corrf.Spec.one = Corrf.Spec.layer a (elements (1 : Su2.Op p)) := by
  funext u l d r
  simp only [Corrf.Spec.layer, ha, Finset.sum_range]
  refine Finset.sum_congr rfl fun s _ => Finset.sum_congr rfl fun t _ => ?_
  simp [elements, Corrf.Spec.one, Matrix.one_apply, Fin.ext_iff]

theorem layer_turned {a : Tensor ℂ} (ha : a.size 0 = p) (U O : Su2.Op p) : Corrf.Spec.layer (turned U a) (elements O) = Corrf.Spec.layer a (elements (U.conjTranspose * O * U)) := by
  funext u l d r
  rw [layer_elements (a := turned U a) ha, layer_elements ha]
  have hv : ∀ rest : List Nat, (fun s : Fin p => (turned U a).val ((s : Nat) :: rest)) = U.mulVec (fun s : Fin p => a.val ((s : Nat) :: rest)) := by
    intro rest
    funext s
    simp [turned, Matrix.mulVec, dotProduct]
  rw [hv, hv, Matrix.star_mulVec, Matrix.mulVec_mulVec, ← Matrix.dotProduct_mulVec, Matrix.mulVec_mulVec, Matrix.mul_assoc]
  rfl

theorem turn_unitary (φ : ℝ) : (turn p φ).conjTranspose * turn p φ = 1 := by
  rw [turn_conj, ← turn_add]
  simp [turn_zero]

variable {N : Corrf.Spec.Tensors ℂ} {D : Dims} (hN : ∀ c, (N.a c).size 0 = p)
include hN

theorem spiral_one (q : ℝ × ℝ) (c0 c : Coord) : Corrf.Spec.layer (N.a c) Corrf.Spec.one = Corrf.Spec.layer ((spiralState p q c0 N).a c) Corrf.Spec.one := by
  have h : ((spiralState p q c0 N).a c).size 0 = p := hN c
  rw [layer_one (hN c), layer_one h]
  simp only [spiralState]
  rw [layer_turned (hN c), Matrix.mul_one, turn_unitary]

/-- The correlations of a spiral by those of the state. -/
theorem spiral_correlation (q : ℝ × ℝ) (c0 : Coord) (d : Dir) (c : Coord) (A B : Su2.Op p) (r : Nat) :
    let φ := fun v : Coord => 2 * Real.pi * (q.1 * (v.1 - c0.1) + q.2 * (v.2 - c0.2))
    correlation (spiralState p q c0 N) D d c A B r = correlation N D d c ((turn p (φ c)).conjTranspose * A * turn p (φ c))
      ((turn p (φ (Corrf.Spec.ahead d c (r + 1)))).conjTranspose * B * turn p (φ (Corrf.Spec.ahead d c (r + 1)))) r := by
  intro φ
  unfold correlation
  rw [norm_same (f := (spiralState p q c0 N).a) (spiral_one hN q c0)]
  congr 1
  exact (twoPoint_same (f := (spiralState p q c0 N).a) (spiral_one hN q c0) (layer_turned (hN c) _ _).symm (layer_turned (hN _) _ _).symm).symm

omit hN in
/-- Only the matrix elements in range count. -/
theorem correlation_congr {A A' B B' : Su2.Op p} (h1 : A = A') (h2 : B = B') (d : Dir) (c : Coord) (r : Nat) : correlation N D d c A B r = correlation N D d c A' B' r := by rw [h1, h2]

omit hN in
theorem elements_smul (z : ℂ) (A : Su2.Op p) : elements (z • A) = fun i j => z * elements A i j := by
  funext i j
  unfold elements
  split_ifs <;> simp

omit hN in
theorem elements_sum (A : Su2.Op p) : elements A = fun i j => ∑ x ∈ (Finset.univ : Finset (Fin p × Fin p)), A x.1 x.2 * elements (Matrix.single x.1 x.2 (1 : ℂ)) i j := by
  funext i j
  unfold elements
  split_ifs with h
  · rw [Fintype.sum_prod_type, Finset.sum_eq_single ⟨i, h.1⟩, Finset.sum_eq_single ⟨j, h.2⟩]
    · simp
    · intro b _ hb; simp [Matrix.single, hb]
    · simp
    · intro b _ hb; simp [Matrix.single, hb]
    · simp
  · simp

omit hN in
theorem correlation_smul (z w : ℂ) (A B : Su2.Op p) (d : Dir) (c : Coord) (r : Nat) : correlation N D d c (z • A) (w • B) r = z * w * correlation N D d c A B r := by
  unfold correlation
  rw [elements_smul, elements_smul, Energy.twoPoint_smul]
  ring

omit hN in
theorem correlation_sum (A B : Su2.Op p) (d : Dir) (c : Coord) (r : Nat) : correlation N D d c A B r =
    ∑ x : Fin p × Fin p, ∑ y : Fin p × Fin p, A x.1 x.2 * B y.1 y.2 * correlation N D d c (Matrix.single x.1 x.2 1) (Matrix.single y.1 y.2 1) r := by
  have h : Corrf.Spec.twoPoint N D d c (elements A) (elements B) r = ∑ x : Fin p × Fin p, A x.1 x.2 * ∑ y : Fin p × Fin p, B y.1 y.2 *
      Corrf.Spec.twoPoint N D d c (elements (Matrix.single x.1 x.2 1)) (elements (Matrix.single y.1 y.2 1)) r := by
    conv_lhs => rw [elements_sum A]
    rw [Energy.twoPoint_left]
    refine Finset.sum_congr rfl fun x _ => ?_
    conv_lhs => rw [elements_sum B]
    rw [Energy.twoPoint_right]
  unfold correlation
  rw [h]
  simp only [Finset.mul_sum, Finset.sum_div]
  exact Finset.sum_congr rfl fun _ _ => Finset.sum_congr rfl fun _ _ => by ring

omit hN in
/-- `S.S` is invariant under a common rotation, entry by entry. -/
theorem dot_entries (φ : ℝ) (i j k l : Fin p) :
    ∑ a, ((turn p φ).conjTranspose * Trgl.Spec.spin p a * turn p φ) i j * ((turn p φ).conjTranspose * Trgl.Spec.spin p a * turn p φ) k l = ∑ a, Trgl.Spec.spin p a i j * Trgl.Spec.spin p a k l := by
  have hc := turn_all_comm (ad_dot (p := p) (0 : Fin 2) 1) φ
  have h : (prod fun _ : Fin 2 => turn p φ).conjTranspose * Trgl.Spec.dot 2 p 0 1 * (prod fun _ : Fin 2 => turn p φ) = Trgl.Spec.dot 2 p 0 1 := by
    rw [Matrix.mul_assoc, ← hc.eq, ← Matrix.mul_assoc, prod_conj, prod_mul]
    simp only [turn_unitary, prod_one, Matrix.one_mul]
  have hd : ∀ A B : Su2.Op p, Trgl.Spec.on (0 : Fin 2) A * Trgl.Spec.on 1 B = prod ![A, B] := by
    intro A B
    unfold Trgl.Spec.on
    rw [prod_mul]
    congr 1
    funext x
    fin_cases x <;> simp
  have he : ∀ (A B : Su2.Op p), (prod fun _ : Fin 2 => turn p φ).conjTranspose * prod ![A, B] * (prod fun _ : Fin 2 => turn p φ) =
      prod ![(turn p φ).conjTranspose * A * turn p φ, (turn p φ).conjTranspose * B * turn p φ] := by
    intro A B
    rw [prod_conj, prod_mul, prod_mul]
    congr 1
    funext x
    fin_cases x <;> simp
  unfold Trgl.Spec.dot at h
  simp only [hd, Finset.mul_sum, Finset.sum_mul, he] at h
  have := congrFun (congrFun h ![i, k]) ![j, l]
  simpa [Matrix.sum_apply, prod, Fin.prod_univ_two] using this

omit hN in
theorem correlation_spins {ι : Type} [Fintype ι] (A B A' B' : ι → Su2.Op p) (V : Su2.Op p) (h : ∀ i j k l, ∑ a, A a i j * B a k l = ∑ a, A' a i j * B' a k l) (d : Dir) (c : Coord) (r : Nat) :
    ∑ a, correlation N D d c (A a) (V.conjTranspose * B a * V) r = ∑ a, correlation N D d c (A' a) (V.conjTranspose * B' a * V) r := by
  have key : ∀ A B : ι → Su2.Op p, ∑ a, correlation N D d c (A a) (V.conjTranspose * B a * V) r =
      ∑ x : Fin p × Fin p, ∑ y : Fin p × Fin p, (∑ k, ∑ l, star (V k y.1) * V l y.2 * ∑ a, A a x.1 x.2 * B a k l) * correlation N D d c (Matrix.single x.1 x.2 1) (Matrix.single y.1 y.2 1) r := by
    intro A B
    simp only [fun a => correlation_sum (N := N) (D := D) (A a) (V.conjTranspose * B a * V) d c r]
    rw [Finset.sum_comm]
    refine Finset.sum_congr rfl fun x _ => ?_
    rw [Finset.sum_comm]
    refine Finset.sum_congr rfl fun y _ => ?_
    rw [← Finset.sum_mul]
    congr 1
    simp only [Finset.mul_sum]
    rw [Finset.sum_congr rfl fun k _ => Finset.sum_comm, Finset.sum_comm]
    refine Finset.sum_congr rfl fun a _ => ?_
    simp only [Matrix.mul_apply, Matrix.conjTranspose_apply, Finset.sum_mul, Finset.mul_sum]
    rw [Finset.sum_comm]
    exact Finset.sum_congr rfl fun _ _ => Finset.sum_congr rfl fun _ _ => by ring
  rw [key, key]
  simp only [h]

/-- The correlations of the whole spins do not depend on the vertex whose spin is not rotated. -/
theorem spiral_total (q : ℝ × ℝ) (c0 c1 : Coord) (d : Dir) (c : Coord) (r : Nat) :
    ∑ a, correlation (spiralState p q c0 N) D d c (Trgl.Spec.spin p a) (Trgl.Spec.spin p a) r = ∑ a, correlation (spiralState p q c1 N) D d c (Trgl.Spec.spin p a) (Trgl.Spec.spin p a) r := by
  have key : ∀ c0 : Coord, ∑ a, correlation (spiralState p q c0 N) D d c (Trgl.Spec.spin p a) (Trgl.Spec.spin p a) r =
      ∑ a, correlation N D d c (Trgl.Spec.spin p a) ((turn p (2 * Real.pi * (q.1 * ((r + 1 : Nat) * d.vec.1 : Int) + q.2 * ((r + 1 : Nat) * d.vec.2 : Int)))).conjTranspose *
        Trgl.Spec.spin p a * turn p (2 * Real.pi * (q.1 * ((r + 1 : Nat) * d.vec.1 : Int) + q.2 * ((r + 1 : Nat) * d.vec.2 : Int)))) r := by
    intro c0
    rw [← correlation_spins _ _ _ _ _ fun i j k l => dot_entries (p := p) (2 * Real.pi * (q.1 * (c.1 - c0.1) + q.2 * (c.2 - c0.2))) i j k l]
    refine Finset.sum_congr rfl fun a _ => ?_
    rw [spiral_correlation hN]
    refine correlation_congr rfl ?_ _ _ _
    have : 2 * Real.pi * (q.1 * (((Corrf.Spec.ahead d c (r + 1)).1 : ℝ) - c0.1) + q.2 * (((Corrf.Spec.ahead d c (r + 1)).2 : ℝ) - c0.2)) =
        2 * Real.pi * (q.1 * (c.1 - c0.1) + q.2 * (c.2 - c0.2)) + 2 * Real.pi * (q.1 * ((r + 1 : Nat) * d.vec.1 : Int) + q.2 * ((r + 1 : Nat) * d.vec.2 : Int)) := by
      simp only [Corrf.Spec.ahead]
      push_cast
      ring
    simp only [this, turn_add, Matrix.conjTranspose_mul]
    simp only [Matrix.mul_assoc]
  rw [key, key]

/-- Without a pitch nothing is rotated. -/
theorem spiral_zero (c0 : Coord) (d : Dir) (c : Coord) (A B : Su2.Op p) (r : Nat) : correlation (spiralState p (0, 0) c0 N) D d c A B r = correlation N D d c A B r := by
  rw [spiral_correlation hN]
  simp [turn_zero]

end

/-! ### C125 -/

section
variable {p : Nat}

theorem layer_transposed {a X : Tensor ℂ} (ha : a.size 0 = p) {O : Su2.Op p} (h : ∀ i j : Fin p, X.val [(i : Nat), (j : Nat)] = O i j) :
    Corrf.Spec.layer a (Corrf.Spec.transposed X) = Corrf.Spec.layer a (elements O.transpose) := by
  funext u l d r
  simp only [Corrf.Spec.layer, ha, Finset.sum_range]
  refine Finset.sum_congr rfl fun s _ => Finset.sum_congr rfl fun t _ => ?_
  simp [elements, Corrf.Spec.transposed, h]

theorem opP_val (O : Su2.Op p) (i j : Fin p) : (opP p O).val [(i : Nat), (j : Nat)] = O i j := by simp [opP]

theorem rotOne_ok (o R : Su2.Op p) : ∃ X, rotOne p (opP p o) R = some X ∧ X.shape = [p, p] ∧ ∀ i j : Fin p, X.val [(i : Nat), (j : Nat)] = (R.transpose * o * R) i j := by
  obtain ⟨X, e, s, v⟩ := einsum_ok (fun _ => p) [(opP p o, [2, 3]), (opP p R, [2, 0]), (opP p R, [3, 1])] [0, 1] (by simp [opP]) (by decide) (by simp)
  refine ⟨X, e, s, fun i j => ?_⟩
  have hv := v (fun n => [(i : Nat), (j : Nat)].getD n 0) (by
    intro n hn
    simp only [List.mem_cons, List.not_mem_nil, or_false] at hn
    rcases hn with rfl | rfl <;> simp)
  have hL : ((List.flatMap Prod.snd [(opP p o, [2, 3]), (opP p R, [2, 0]), (opP p R, [3, 1])]).dedup.filter (fun l => l ∉ ([0, 1] : List Nat))) = [2, 3] := by
    simp only [List.flatMap_cons, List.flatMap_nil]
    decide
  rw [hL] at hv
  refine (show X.val [(i : Nat), (j : Nat)] = _ from hv).trans ?_
  simp only [sumOver, Finset.sum_range, termOf, List.map_cons, List.map_nil, List.prod_cons, List.prod_nil, mul_one, Function.update]
  simp only [Matrix.mul_apply, Matrix.transpose_apply, Finset.sum_mul]
  rw [Finset.sum_comm]
  refine Finset.sum_congr rfl fun k _ => Finset.sum_congr rfl fun l _ => ?_
  simp [opP]
  ring

/-- The pitch vector of the state the correlations refer to. -/
def seen (conj : Bool) (q : ℝ × ℝ) : ℝ × ℝ := if conj then pitch q else (0, 0)

theorem sign_pitch (q : ℝ × ℝ) (d : Dir) (n : Nat) : -(2 * Real.pi * (sign d * (n + 1) * q.1)) =
    2 * Real.pi * ((pitch q).1 * ((n + 1 : Nat) * d.vec.1 : Int) + (pitch q).2 * ((n + 1 : Nat) * d.vec.2 : Int)) := by
  cases d <;> simp [sign, pitch, Dir.vec] <;> ring

variable {D : Dims} {st : State ℂ} {env : Env ℂ} {N : Corrf.Spec.Tensors ℂ}

theorem size_p (hs : FitsState D st) (hp : ∀ c, D.p c = p) (hN : Corrf.Spec.Reads st env N) (c : Coord) : (N.a c).size 0 = p := by
  obtain ⟨t, h1, h2⟩ := hs.site c
  have h3 := hN.a c
  have : st.site c = st.sites (st.vts c) := rfl
  rw [this, h3] at h1
  cases h1
  simp [size, h2, hp]

/-- One call. -/
theorem call_ok (ht : Tiling st) (hs : FitsState D st) (he : FitsEnv D st env) (hp : ∀ c, D.p c = p) (hN : Corrf.Spec.Reads st env N) (d : Dir) (c : Coord) (dist : Nat)
    (hn : ∀ r ≤ dist, Corrf.Spec.norm N D d c (r + 2) ≠ 0) (q : ℝ × ℝ) (conj : Bool) (o : Su2.Op p) :
    ∃ l, Corrf.corrf11 st env d c (opP p o) (genOp p q conj d o) dist = .ok l ∧ l.length = dist + 1 ∧
      ∀ r ≤ dist, l[r]? = some (correlation (spiralState p (seen conj q) c N) D d c o.transpose o.transpose r) := by
  have hsz := size_p hs hp hN
  have hg : ∀ r, (genOp p q conj d o r).shape = [p, p] ∧ ∀ i j : Fin p, (genOp p q conj d o r).val [(i : Nat), (j : Nat)] =
      ((turn p (2 * Real.pi * ((seen conj q).1 * ((r + 1 : Nat) * d.vec.1 : Int) + (seen conj q).2 * ((r + 1 : Nat) * d.vec.2 : Int)))).transpose * o *
        turn p (2 * Real.pi * ((seen conj q).1 * ((r + 1 : Nat) * d.vec.1 : Int) + (seen conj q).2 * ((r + 1 : Nat) * d.vec.2 : Int)))) i j := by
    intro r
    cases conj with
    | false => exact ⟨rfl, fun i j => by simp [genOp, seen, turn_zero, opP_val]⟩
    | true =>
      obtain ⟨X, e, s, v⟩ := rotOne_ok o (rotation p (sign d * (r + 1) * q.1))
      have : genOp p q true d o r = X := by simp only [genOp, if_true, e, Option.getD_some]
      rw [this]
      refine ⟨s, fun i j => ?_⟩
      rw [v, rotation_turn, sign_pitch]
      rfl
  obtain ⟨l, e, hl, v⟩ := Corrf.C38_values_partial ht hs he hN d c (opP p o) (genOp p q conj d o) dist (by rw [hp]; rfl) (fun r _ => by rw [hp]; exact (hg r).1) hn
  refine ⟨l, e, hl, fun r hr => ?_⟩
  rw [v r hr, spiral_correlation hsz]
  unfold correlation
  congr 2
  refine twoPoint_same (f := N.a) (fun _ => rfl) ?_ ?_
  · rw [layer_transposed (hsz c) (opP_val o)]
    simp [turn_zero]
  · rw [layer_transposed (hsz _) (hg r).2]
    congr 2
    have : ∀ x : ℝ, x = 2 * Real.pi * ((seen conj q).1 * ((r + 1 : Nat) * d.vec.1 : Int) + (seen conj q).2 * ((r + 1 : Nat) * d.vec.2 : Int)) →
        ((turn p (2 * Real.pi * ((seen conj q).1 * ((r + 1 : Nat) * d.vec.1 : Int) + (seen conj q).2 * ((r + 1 : Nat) * d.vec.2 : Int)))).transpose * o *
        turn p (2 * Real.pi * ((seen conj q).1 * ((r + 1 : Nat) * d.vec.1 : Int) + (seen conj q).2 * ((r + 1 : Nat) * d.vec.2 : Int)))).transpose =
        (turn p x).conjTranspose * o.transpose * turn p x := by
      rintro x rfl
      rw [Matrix.transpose_mul, Matrix.transpose_mul, Matrix.transpose_transpose, turn_transpose, turn_conj, Matrix.mul_assoc]
    refine this _ ?_
    simp only [Corrf.Spec.ahead]
    push_cast
    ring

theorem szxiy_transpose (p : Nat) : (szxiy p 0).transpose = Trgl.Spec.spin p 2 ∧ (szxiy p 1).transpose = Trgl.Spec.spin p 0 ∧ (szxiy p 2).transpose = (-Complex.I) • Trgl.Spec.spin p 1 := by
  refine ⟨?_, ?_, ?_⟩
  · show (Su2.SZ p).transpose = Su2.SZ p
    ext i j
    simp only [Matrix.transpose_apply, Su2.SZ, Matrix.of_apply, Su2.szEntry]
    by_cases h : i = j
    · rw [h]
    · simp [h, Ne.symm h]
  · show ((1 / 2 : ℂ) • (Su2.SP p + Su2.SM p)).transpose = Su2.Spec.Sx p
    rw [Matrix.transpose_smul, Matrix.transpose_add, Su2.SM_eq_transpose, Matrix.transpose_transpose, add_comm]
    simp [Su2.Spec.Sx, Su2.SM_eq_transpose]
  · show ((1 / 2 : ℂ) • (Su2.SP p - Su2.SM p)).transpose = (-Complex.I) • Su2.Spec.Sy p
    rw [Matrix.transpose_smul, Matrix.transpose_sub, Su2.SM_eq_transpose, Matrix.transpose_transpose]
    unfold Su2.Spec.Sy
    rw [smul_smul, Su2.SM_eq_transpose, ← neg_sub, smul_neg, ← neg_smul]
    congr 1
    linear_combination (-(1 / 2) : ℂ) * Complex.I_mul_I

/-- The lists hold the correlations of the components of the spins at the distances `1, ..., dist + 1` in the state `N`. -/
structure Spec.Holds (p : Nat) (N : Corrf.Spec.Tensors ℂ) (D : Dims) (d : Dir) (c : Coord) (dist : Nat) (R : Corr) : Prop where
  length : R.ss.length = dist + 1 ∧ R.szsz.length = dist + 1 ∧ R.sxsx.length = dist + 1 ∧ R.sysy.length = dist + 1
  xx : ∀ r ≤ dist, R.sxsx[r]? = some (correlation N D d c (Trgl.Spec.spin p 0) (Trgl.Spec.spin p 0) r).re
  yy : ∀ r ≤ dist, R.sysy[r]? = some (correlation N D d c (Trgl.Spec.spin p 1) (Trgl.Spec.spin p 1) r).re
  zz : ∀ r ≤ dist, R.szsz[r]? = some (correlation N D d c (Trgl.Spec.spin p 2) (Trgl.Spec.spin p 2) r).re

/-- For every state, environment, site, direction, distance and pitch vector `eval_corrf_SS` returns the correlations of the components of the spins, and of the spins, in the spiral
of pitch `(-q_x, q_x)` or, without `conj_s`, in the state. The components are those of the spiral whose spin at `c` is not rotated. -/
theorem C125_values (eigh : Tensor ℂ → List ℝ × Tensor ℂ) (ht : Tiling st) (hs : FitsState D st) (he : FitsEnv D st env) (hp : ∀ c, D.p c = p) (hN : Corrf.Spec.Reads st env N) (d : Dir) (c : Coord)
    (dist : Nat) (hn : ∀ r ≤ dist, Corrf.Spec.norm N D d c (r + 2) ≠ 0) (q : ℝ × ℝ) :
    (∃ R, evalCorrfSS eigh p q false true st env d c dist = .ok R ∧ Spec.Holds p (spiralState p (-q.1, q.1) c N) D d c dist R ∧
      ∀ c0, ∀ r ≤ dist, R.ss[r]? = some (∑ a, correlation (spiralState p (-q.1, q.1) c0 N) D d c (Trgl.Spec.spin p a) (Trgl.Spec.spin p a) r).re) ∧
    ∃ R, evalCorrfSS eigh p q false false st env d c dist = .ok R ∧ Spec.Holds p N D d c dist R ∧
      ∀ r ≤ dist, R.ss[r]? = some (∑ a, correlation N D d c (Trgl.Spec.spin p a) (Trgl.Spec.spin p a) r).re := by
  have hsz := size_p hs hp hN
  obtain ⟨t0, t1, t2⟩ := szxiy_transpose p
  have key : ∀ conj, ∃ R, evalCorrfSS eigh p q false conj st env d c dist = .ok R ∧ Spec.Holds p (spiralState p (seen conj q) c N) D d c dist R ∧
      ∀ r ≤ dist, R.ss[r]? = some (∑ a, correlation (spiralState p (seen conj q) c N) D d c (Trgl.Spec.spin p a) (Trgl.Spec.spin p a) r).re := by
    intro conj
    obtain ⟨z, ez, lz, vz⟩ := call_ok ht hs he hp hN d c dist hn q conj (szxiy p 0)
    obtain ⟨x, ex, lx, vx⟩ := call_ok ht hs he hp hN d c dist hn q conj (szxiy p 1)
    obtain ⟨y, ey, ly, vy⟩ := call_ok ht hs he hp hN d c dist hn q conj (szxiy p 2)
    rw [t0] at vz
    rw [t1] at vx
    rw [t2] at vy
    have hy : ∀ r, correlation (spiralState p (seen conj q) c N) D d c ((-Complex.I) • Trgl.Spec.spin p 1) ((-Complex.I) • Trgl.Spec.spin p 1) r =
        -correlation (spiralState p (seen conj q) c N) D d c (Trgl.Spec.spin p 1) (Trgl.Spec.spin p 1) r := by
      intro r
      rw [correlation_smul]
      linear_combination (correlation (spiralState p (seen conj q) c N) D d c (Trgl.Spec.spin p 1) (Trgl.Spec.spin p 1) r) * Complex.I_mul_I
    refine ⟨corrOf (realParts z) (realParts x) (realParts y), ?_, ⟨⟨?_, ?_, ?_, ?_⟩, ?_, ?_, ?_⟩, ?_⟩
    · unfold evalCorrfSS operators
      simp only [Bool.false_eq_true, if_false]
      show (Corrf.corrf11 st env d c (opP p (szxiy p 0)) (genOp p q conj d (szxiy p 0)) dist >>= _) = _
      rw [ez]
      show (Corrf.corrf11 st env d c (opP p (szxiy p 1)) (genOp p q conj d (szxiy p 1)) dist >>= _) = _
      rw [ex]
      show (Corrf.corrf11 st env d c (opP p (szxiy p 2)) (genOp p q conj d (szxiy p 2)) dist >>= _) = _
      rw [ey]
      rfl
    · simp [corrOf, realParts, lz, lx, ly]
    · simp [corrOf, realParts, lz]
    · simp [corrOf, realParts, lx]
    · simp [corrOf, realParts, ly]
    · intro r hr
      simp [corrOf, realParts, vx r hr]
    · intro r hr
      simp only [corrOf, realParts, List.getElem?_map, vy r hr, hy, Option.map_some, Complex.neg_re, neg_neg]
    · intro r hr
      simp [corrOf, realParts, vz r hr]
    · intro r hr
      simp only [corrOf, realParts, List.getElem?_zipWith, List.getElem?_map, vz r hr, vx r hr, vy r hr, hy, Option.map_some, Fin.sum_univ_three, Complex.add_re, Complex.neg_re]
      congr 1
      ring
  constructor
  · obtain ⟨R, e, h1, h2⟩ := key true
    refine ⟨R, e, h1, fun c0 r hr => ?_⟩
    rw [spiral_total hsz _ c0 c]
    exact h2 r hr
  · obtain ⟨R, e, h1, h2⟩ := key false
    have hz : ∀ A B r, correlation (spiralState p (seen false q) c N) D d c A B r = correlation N D d c A B r := fun A B r => spiral_zero hsz c d c A B r
    simp only [hz] at h2
    exact ⟨R, e, ⟨h1.length, fun r hr => hz _ _ r ▸ h1.xx r hr, fun r hr => hz _ _ r ▸ h1.yy r hr, fun r hr => hz _ _ r ▸ h1.zz r hr⟩, h2⟩

end
end Verif.Trgl
