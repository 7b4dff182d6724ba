import Mathlib.Tactic.Linarith
import Verif.Mixed.Model
import Verif.Analytic.Props
import Verif.SurfArith.Props

/-!
# C145: operators between measured surfaces, analytical surfaces and numbers
-/

namespace Verif.Mixed

open SurfaceGeo (Geo)

/-! ## Specification -/

/-- `r` is a surface with the nodes of `s` whose height at the node `(i, j)` is `f` of the height of `s` and the height `z` of the other surface at the place of the node. -/
def AtNodes (f : ℝ → ℝ → ℝ) (s : Surf) (g : ℝ) (z : ℝ → ℝ → ℝ) (r : Surf) : Prop :=
  r.gs = some g ∧ r.prof.rows = s.prof.rows ∧ r.prof.cols = s.prof.cols ∧
    ∀ i j, i < s.prof.rows → j < s.prof.cols → r.prof.val i j = f (s.prof.val i j) (z ((i : ℝ) * g) ((j : ℝ) * g))

/-- An analytical surface that is not discrete. -/
def Ana.Fresh (a : Ana) : Prop := a.prof = none ∧ a.geo.prof = none

/-- Is it a surface? -/
def Operand.IsSurface : Operand → Prop
  | .number _ => False
  | _ => True

theorem apply_add (ev : SurfArith.Spline ℝ) (a b : Operand) (ha : a.IsSurface) : apply ev .add a b = add ev a b := by
  cases a with
  | number c => exact ha.elim
  | measured s => cases b <;> simp [apply, method, special, defined]
  | analytic s => cases b <;> simp [apply, method, special, defined]

theorem apply_sub (ev : SurfArith.Spline ℝ) (a b : Operand) (ha : a.IsSurface) : apply ev .sub a b = sub ev a b := by
  cases a with
  | number c => exact ha.elim
  | measured s => cases b <;> simp [apply, method, special, defined]
  | analytic s => cases b <;> simp [apply, method, special, defined]

theorem apply_mul (ev : SurfArith.Spline ℝ) (a b : Operand) (ha : a.IsSurface) : apply ev .mul a b = mul a b := by
  cases a with
  | number c => exact ha.elim
  | measured s => cases b <;> simp [apply, method, special, defined]
  | analytic s => cases b <;> simp [apply, method, special, defined]

/-! ## Sums -/

theorem trunc_natCast (n : ℕ) : SurfaceGeo.trunc (n : ℝ) = (n : ℤ) := by
  unfold SurfaceGeo.trunc
  rw [if_pos (Nat.cast_nonneg n)]
  exact_mod_cast Int.floor_natCast n

theorem setGs_after (x : Geo ℝ) (hp : x.prof = none) (e : List ℝ) (he : x.extent = some e) (g : ℝ) (hg : g ≠ 0) :
    (SurfaceGeo.setGs x (.value g)).2 = none ∧ (SurfaceGeo.setGs x (.value g)).1.gs = some g ∧ (SurfaceGeo.setGs x (.value g)).1.prof = none := by
  unfold SurfaceGeo.setGs
  dsimp only
  rw [hp, he]
  dsimp only
  unfold SurfaceGeo.divide
  rw [if_neg hg]
  exact ⟨rfl, rfl, rfl⟩

theorem setShape_after (x : Geo ℝ) (hp : x.prof = none) (g : ℝ) (hg : x.gs = some g) (n m : ℕ) :
    (SurfaceGeo.setShape x [(n : ℝ), (m : ℝ)]).2 = none ∧ (SurfaceGeo.setShape x [(n : ℝ), (m : ℝ)]).1.gs = some g ∧
      (SurfaceGeo.setShape x [(n : ℝ), (m : ℝ)]).1.shape = some [(n : ℤ), (m : ℤ)] ∧ (SurfaceGeo.setShape x [(n : ℝ), (m : ℝ)]).1.extent = some [(n : ℝ) * g, (m : ℝ) * g] := by
  unfold SurfaceGeo.setShape
  rw [hp]
  dsimp only
  rw [hg]
  simp [trunc_natCast]

/-- The extent of another surface can be set exactly if the first number of points does not come out as zero. -/
theorem setExtent_fresh (x : Geo ℝ) (hp : x.prof = none) (e0 e1 : ℝ)
    (h : (x.gs = none ∧ x.shape = none) ∨ ∃ h, x.gs = some h ∧ 0 < h ∧ h ≤ e0) :
    (SurfaceGeo.setExtent x [e0, e1]).2 = none ∧ (SurfaceGeo.setExtent x [e0, e1]).1.prof = none ∧ ∃ e, (SurfaceGeo.setExtent x [e0, e1]).1.extent = some e := by
  unfold SurfaceGeo.setExtent
  rw [if_neg (by simp), hp]
  dsimp only
  rcases h with ⟨h1, h2⟩ | ⟨h, h1, h2, h3⟩
  · rw [h1, h2]
    exact ⟨rfl, rfl, _, rfl⟩
  · rw [h1]
    dsimp only
    unfold SurfaceGeo.divide
    rw [if_neg h2.ne']
    dsimp only [List.map]
    unfold SurfaceGeo.spacingFrom
    dsimp only
    have h4 : 1 ≤ e0 / h := (one_le_div h2).mpr h3
    have h5 : SurfaceGeo.trunc (e0 / h) ≠ 0 := by
      unfold SurfaceGeo.trunc
      rw [if_pos (by linarith)]
      have : (1 : ℤ) ≤ ⌊e0 / h⌋ := Int.le_floor.mpr (by exact_mod_cast h4)
      omega
    rw [if_neg h5]
    exact ⟨rfl, rfl, _, rfl⟩

/-- **C145, analytical plus measured (partial).** For every measured surface with a spacing and every analytical surface that is not discrete, has no geometry of its own or a spacing that
is not larger than the measured surface, `a + s` is the surface with the nodes of `s` and the sum of the heights there. Missing: the other order and coarse surfaces, where it is false, see below. -/
theorem C145_sum_partial (ev : SurfArith.Spline ℝ) (s : Surf) (a : Ana) (g : ℝ) (hg : s.gs = some g) (h0 : 0 < g) (ha : a.Fresh)
    (hs : (a.geo.gs = none ∧ a.geo.shape = none) ∨ ∃ h, a.geo.gs = some h ∧ 0 < h ∧ h ≤ g * (s.prof.rows : ℝ)) :
    ∃ r, apply ev .add (.analytic a) (.measured s) = .ok (.measured r) ∧ AtNodes (fun x y => x + y) s g a.height r := by
  obtain ⟨e1, e2, e, e3⟩ := setExtent_fresh a.geo ha.2 (g * (s.prof.rows : ℝ)) (g * (s.prof.cols : ℝ)) hs
  obtain ⟨g1, g2, g3⟩ := setGs_after _ e2 e e3 g h0.ne'
  obtain ⟨s1, s2, s3, s4⟩ := setShape_after _ g3 g g2 s.prof.rows s.prof.cols
  have ht : ∃ x, takeGeometry a s = .ok x ∧ x.gs = some g ∧ x.shape = some [(s.prof.rows : ℤ), (s.prof.cols : ℤ)] ∧
      x.extent = some [(s.prof.rows : ℝ) * g, (s.prof.cols : ℝ) * g] := by
    refine ⟨_, ?_, s2, s3, s4⟩
    unfold takeGeometry extentOf after
    rw [hg]
    dsimp only [Option.map_some]
    rw [e1]
    dsimp only
    rw [g1]
    dsimp only
    rw [s1]
  obtain ⟨x, hx, x1, x2, x3⟩ := ht
  have hd : discretise a.height x = .ok ⟨s.prof.rows, s.prof.cols, (Analytic.sample a.height g s.prof.rows s.prof.cols).val⟩ := by
    unfold discretise
    rw [x1, x2, x3]
    rfl
  refine ⟨(SurfArith.add ev s ⟨⟨s.prof.rows, s.prof.cols, (Analytic.sample a.height g s.prof.rows s.prof.cols).val⟩, x.gs, none⟩).1, ?_, ?_⟩
  · rw [apply_add ev _ _ (by exact trivial)]
    unfold add
    dsimp only
    rw [ha.1]
    dsimp only
    rw [hx]
    dsimp only
    rw [hd]
  · rw [x1]
    unfold SurfArith.add SurfArith.common SurfArith.mk SurfArith.combine AtNodes
    rw [hg]
    dsimp only
    rw [if_pos rfl]
    refine ⟨rfl, min_self _, min_self _, fun i j hi hj => ?_⟩
    dsimp only [Analytic.sample]
    rw [Analytic.linspace_eq g _ _ hi, Analytic.linspace_eq g _ _ hj]

/-- The hypotheses can be met: a plane added to a measured surface of two by three points. -/
example : ∃ (s : Surf) (a : Ana), s.gs = some 2 ∧ a.Fresh ∧ a.geo.gs = some 3 ∧ (3 : ℝ) ≤ 2 * (s.prof.rows : ℝ) ∧ a.height 2 0 = 2 :=
  ⟨⟨⟨2, 3, fun _ _ => 1⟩, some 2, none⟩, ⟨fun x _ => x, ⟨some 3, none, none, none, none⟩, none⟩, rfl, ⟨rfl, rfl⟩, rfl, by norm_num, rfl⟩

/-- **C145 is false: coarse analytical surfaces.** If the spacing of the analytical surface is larger than the measured surface, `a + s` raises `ZeroDivisionError`, although this spacing is not used for the sum. -/
theorem C145_coarse_wrong (ev : SurfArith.Spline ℝ) (s : Surf) (a : Ana) (g h : ℝ) (hg : s.gs = some g) (h0 : 0 < g) (ha : a.Fresh) (hh : a.geo.gs = some h)
    (hl : g * (s.prof.rows : ℝ) < h) : apply ev .add (.analytic a) (.measured s) = .error (.py .zeroDivisionError) := by
  have hn : 0 ≤ g * (s.prof.rows : ℝ) := mul_nonneg h0.le (Nat.cast_nonneg _)
  have hpos : 0 < h := lt_of_le_of_lt hn hl
  have hz : SurfaceGeo.trunc (g * (s.prof.rows : ℝ) / h) = 0 := by
    unfold SurfaceGeo.trunc
    rw [if_pos (by positivity)]
    exact Int.floor_eq_zero_iff.mpr ⟨by positivity, (div_lt_one hpos).mpr hl⟩
  rw [apply_add ev _ _ (by exact trivial)]
  unfold add
  dsimp only
  rw [ha.1]
  dsimp only
  unfold takeGeometry extentOf
  rw [hg]
  dsimp only [Option.map_some]
  have he : (SurfaceGeo.setExtent a.geo [g * (s.prof.rows : ℝ), g * (s.prof.cols : ℝ)]).2 = some .zeroDivisionError := by
    unfold SurfaceGeo.setExtent
    rw [if_neg (by simp), ha.2]
    dsimp only
    rw [hh]
    dsimp only
    unfold SurfaceGeo.divide
    rw [if_neg hpos.ne']
    dsimp only [List.map]
    unfold SurfaceGeo.spacingFrom
    dsimp only
    rw [hz, if_pos rfl]
  unfold after
  rw [he]

/-- Such surfaces: a sphere that is to be evaluated every 10 units, and a measured surface of size 4. -/
example : ∃ (s : Surf) (a : Ana), s.gs = some 2 ∧ a.Fresh ∧ a.geo.gs = some 10 ∧ 2 * (s.prof.rows : ℝ) < 10 :=
  ⟨⟨⟨2, 3, fun _ _ => 1⟩, some 2, none⟩, ⟨fun x _ => x, ⟨some 10, none, none, none, none⟩, none⟩, rfl, ⟨rfl, rfl⟩, rfl, by norm_num⟩

theorem withNothing_fails (s : Surf) (a : Ana) (r : Operand) : withNothing s a ≠ .ok r := by
  unfold withNothing resampleNothing
  split
  · split
    · split <;> simp
    · simp
  · simp

theorem withNothing_attribute (s : Surf) (a : Ana) (h : ∀ g k, s.gs = some g → a.geo.gs = some k → k ≤ g) : withNothing s a = .error (.py .attributeError) := by
  unfold withNothing
  split
  · rename_i g k hg hk
    rw [if_neg (not_lt.mpr (h g k hg hk))]
  · rfl

/-- **C145 is false: order and differences.** A measured surface plus an analytical one that is not discrete raises an exception, and so do both differences, for all surfaces; the exception is `AttributeError` unless the
analytical surface has the larger spacing. -/
theorem C145_order_wrong (ev : SurfArith.Spline ℝ) (s : Surf) (a : Ana) (ha : a.Fresh) :
    (∀ r, apply ev .add (.measured s) (.analytic a) ≠ .ok r ∧ apply ev .sub (.measured s) (.analytic a) ≠ .ok r ∧ apply ev .sub (.analytic a) (.measured s) ≠ .ok r) ∧
    ((∀ g k, s.gs = some g → a.geo.gs = some k → k ≤ g) → apply ev .add (.measured s) (.analytic a) = .error (.py .attributeError) ∧
      apply ev .sub (.measured s) (.analytic a) = .error (.py .attributeError) ∧ apply ev .sub (.analytic a) (.measured s) = .error (.py .attributeError)) := by
  have h1 : apply ev .add (.measured s) (.analytic a) = withNothing s a := by
    rw [apply_add ev _ _ (by exact trivial)]
    unfold add
    dsimp only
    rw [ha.1]
  have h2 : apply ev .sub (.measured s) (.analytic a) = withNothing s a := by
    rw [apply_sub ev _ _ (by exact trivial)]
    unfold sub
    dsimp only
    rw [ha.1]
  have h3 : apply ev .sub (.analytic a) (.measured s) = withNothing s a := by
    rw [apply_sub ev _ _ (by exact trivial)]
    unfold sub
    dsimp only
    rw [ha.1]
  rw [h1, h2, h3]
  exact ⟨fun r => ⟨withNothing_fails s a r, withNothing_fails s a r, withNothing_fails s a r⟩,
    fun h => ⟨withNothing_attribute s a h, withNothing_attribute s a h, withNothing_attribute s a h⟩⟩

/-- The same two surfaces in the order for which there is a sum, so that the sum depends on the order. -/
example (ev : SurfArith.Spline ℝ) : ∃ (s : Surf) (a : Ana) (r : Operand), a.Fresh ∧ apply ev .add (.analytic a) (.measured s) = .ok r ∧
    apply ev .add (.measured s) (.analytic a) = .error (.py .attributeError) := by
  obtain ⟨r, h, _⟩ := C145_sum_partial ev ⟨⟨2, 3, fun _ _ => 1⟩, some 2, none⟩ ⟨fun x _ => x, Geo.new, none⟩ 2 rfl two_pos ⟨rfl, rfl⟩ (Or.inl ⟨rfl, rfl⟩)
  exact ⟨_, _, _, ⟨rfl, rfl⟩, h, ((C145_order_wrong ev _ _ ⟨rfl, rfl⟩).2 fun g k _ hk => by simp [Geo.new] at hk).1⟩

/-- **C145, discrete analytical surfaces.** With a profile an analytical surface is added to and subtracted from measured surfaces of the same spacing on the common part, in either order. -/
theorem C145_discrete (ev : SurfArith.Spline ℝ) (s : Surf) (a : Ana) (p : Arr) (hp : a.prof = some p) (hg : s.gs = a.geo.gs) :
    ∃ r1 r2 r3 r4, apply ev .add (.measured s) (.analytic a) = .ok (.measured r1) ∧ apply ev .add (.analytic a) (.measured s) = .ok (.measured r2) ∧
      apply ev .sub (.measured s) (.analytic a) = .ok (.measured r3) ∧ apply ev .sub (.analytic a) (.measured s) = .ok (.measured r4) ∧
      (∀ r ∈ [r1, r2, r3, r4], r.gs = s.gs ∧ r.prof.rows = min s.prof.rows p.rows ∧ r.prof.cols = min s.prof.cols p.cols) ∧
      ∀ i j, r1.prof.val i j = s.prof.val i j + p.val i j ∧ r2.prof.val i j = s.prof.val i j + p.val i j ∧
        r3.prof.val i j = s.prof.val i j - p.val i j ∧ r4.prof.val i j = p.val i j - s.prof.val i j := by
  refine ⟨(SurfArith.add ev s (a.discrete p)).1, (SurfArith.add ev (a.discrete p) s).1, (SurfArith.sub ev s (a.discrete p)).1, (SurfArith.sub ev (a.discrete p) s).1, ?_, ?_, ?_, ?_, ?_, ?_⟩
  · rw [apply_add ev _ _ (by exact trivial)]
    unfold add
    dsimp only
    rw [hp]
  · rw [apply_add ev _ _ (by exact trivial)]
    unfold add
    dsimp only
    rw [hp]
  · rw [apply_sub ev _ _ (by exact trivial)]
    unfold sub
    dsimp only
    rw [hp]
  · rw [apply_sub ev _ _ (by exact trivial)]
    unfold sub
    dsimp only
    rw [hp]
  · unfold SurfArith.add SurfArith.sub SurfArith.common SurfArith.mk SurfArith.combine Ana.discrete
    rw [← hg]
    cases s.gs with
    | none => simp [min_comm]
    | some g => simp [min_comm]
  · intro i j
    unfold SurfArith.add SurfArith.sub SurfArith.common SurfArith.mk SurfArith.combine Ana.discrete
    rw [← hg]
    cases s.gs with
    | none => simp [add_comm]
    | some g => simp [add_comm]

/-- The hypotheses can be met. -/
example : ∃ (s : Surf) (a : Ana) (p : Arr), a.prof = some p ∧ s.gs = a.geo.gs ∧ s.gs = some 2 ∧ p.val 1 1 = 2 :=
  ⟨⟨⟨2, 3, fun _ _ => 1⟩, some 2, none⟩, ⟨fun x _ => x, ⟨some 2, some [4, 4], some [2, 2], some 4, some [2, 2]⟩, some ⟨2, 2, fun i _ => 2 * i⟩⟩, _, rfl, rfl, rfl, by norm_num⟩

/-! ## Numbers -/

/-- `r` has the geometry of `s` and each height changed by `f`. -/
def MeasuredBy (f : ℝ → ℝ) (s r : Surf) : Prop :=
  r.gs = s.gs ∧ r.prof.rows = s.prof.rows ∧ r.prof.cols = s.prof.cols ∧ ∀ i j, r.prof.val i j = f (s.prof.val i j)

/-- `r` has the geometry of `a` and each height changed by `f`, at every point and in the profile if there is one. -/
def AnalyticBy (f : ℝ → ℝ) (a r : Ana) : Prop :=
  r.geo = a.geo ∧ (∀ x y, r.height x y = f (a.height x y)) ∧ (a.prof = none → r.prof = none) ∧
    ∀ p, a.prof = some p → ∃ q, r.prof = some q ∧ q.rows = p.rows ∧ q.cols = p.cols ∧ ∀ i j, q.val i j = f (p.val i j)

theorem analyticBy_withHeights (a : Ana) (f g : ℝ → ℝ) (h : ∀ x, f x = g x) : AnalyticBy f a (withHeights a g) := by
  refine ⟨rfl, fun x y => (h _).symm, fun hp => ?_, fun p hp => ⟨{ p with val := fun i j => g (p.val i j) }, ?_, rfl, rfl, fun i j => (h _).symm⟩⟩
  · simp [withHeights, hp]
  · simp [withHeights, hp]

/-- **C145, numbers on the right.** A surface times a number, and an analytical surface plus and minus a number, have the heights one expects, at every point and in the profile if there is one;
a measured surface plus a number too (minus a number it is wrong, see C42). Products of two surfaces are refused. -/
theorem C145_numbers (ev : SurfArith.Spline ℝ) (s t : Surf) (a b : Ana) (c : ℝ) :
    (∃ r, apply ev .mul (.measured s) (.number c) = .ok (.measured r) ∧ MeasuredBy (fun h => c * h) s r) ∧
    (∃ r, apply ev .add (.measured s) (.number c) = .ok (.measured r) ∧ MeasuredBy (fun h => c + h) s r) ∧
    (∃ r, apply ev .mul (.analytic a) (.number c) = .ok (.analytic r) ∧ AnalyticBy (fun h => c * h) a r) ∧
    (∃ r, apply ev .add (.analytic a) (.number c) = .ok (.analytic r) ∧ AnalyticBy (fun h => c + h) a r) ∧
    (∃ r, apply ev .sub (.analytic a) (.number c) = .ok (.analytic r) ∧ AnalyticBy (fun h => h - c) a r) ∧
    apply ev .mul (.measured s) (.measured t) = .error (.py .notImplementedError) ∧ apply ev .mul (.measured s) (.analytic a) = .error (.py .notImplementedError) ∧
    apply ev .mul (.analytic a) (.measured s) = .error (.py .notImplementedError) ∧ apply ev .mul (.analytic a) (.analytic b) = .error (.py .notImplementedError) := by
  refine ⟨⟨SurfArith.mulNumber s c, ?_, rfl, rfl, rfl, fun i j => mul_comm _ _⟩, ⟨SurfArith.addNumber s c, ?_, rfl, rfl, rfl, fun i j => add_comm _ _⟩,
    ⟨withHeights a fun h => h * c, ?_, analyticBy_withHeights a _ _ fun x => mul_comm _ _⟩, ⟨withHeights a fun h => h + c, ?_, analyticBy_withHeights a _ _ fun x => add_comm _ _⟩,
    ⟨withHeights a fun h => h - c, ?_, analyticBy_withHeights a _ _ fun x => rfl⟩, ?_, ?_, ?_, ?_⟩
  all_goals
    first
      | rw [apply_add ev _ _ (by exact trivial)]; rfl
      | rw [apply_sub ev _ _ (by exact trivial)]; rfl
      | rw [apply_mul ev _ _ (by exact trivial)]; rfl

/-- A discrete analytical surface with the height 3 at `(1, 1)`, times two. -/
example (ev : SurfArith.Spline ℝ) : ∃ (a r : Ana) (q : Arr), apply ev .mul (.analytic a) (.number 2) = .ok (.analytic r) ∧ a.height 1 1 = 3 ∧ r.height 1 1 = 6 ∧ r.prof = some q ∧ q.val 1 1 = 6 := by
  let a : Ana := ⟨fun x y => x + 2 * y, ⟨some 1, some [2, 2], some [2, 2], some 4, some [2, 2]⟩, some ⟨2, 2, fun i j => (i : ℝ) + 2 * (j : ℝ)⟩⟩
  obtain ⟨_, _, ⟨r, h, _, h1, _, h2⟩, _⟩ := C145_numbers ev ⟨⟨1, 1, fun _ _ => 1⟩, some 1, none⟩ ⟨⟨1, 1, fun _ _ => 1⟩, some 1, none⟩ a a 2
  obtain ⟨q, hq, _, _, hv⟩ := h2 _ rfl
  exact ⟨a, r, q, h, by norm_num [a], by rw [h1]; norm_num [a], hq, by rw [hv]; norm_num⟩

/-- **C145 is false: division.** `a / b` raises `TypeError` for every surface `a` and everything else `b`: the method has the name that Python 2 used. Called by its name it divides the heights. -/
theorem C145_division_wrong (ev : SurfArith.Spline ℝ) (a b : Operand) (ha : a.IsSurface) :
    apply ev .div a b = .error (.py .typeError) ∧
    ∀ c : ℝ, c ≠ 0 → (∀ s, a = .measured s → ∃ r, method ev "__div__" a (.number c) = .ok (.measured r) ∧ MeasuredBy (fun h => h / c) s r) ∧
      ∀ s, a = .analytic s → ∃ r, method ev "__div__" a (.number c) = .ok (.analytic r) ∧ AnalyticBy (fun h => h / c) s r := by
  refine ⟨?_, fun c hc => ⟨?_, ?_⟩⟩
  · unfold apply
    cases a with
    | number c => exact ha.elim
    | measured s =>
      cases b <;> simp [special, defined]
    | analytic s =>
      cases b <;> simp [special, defined]
  · rintro s rfl
    refine ⟨SurfArith.mk { s.prof with val := fun i j => s.prof.val i j / c } s.gs, ?_, rfl, rfl, rfl, fun i j => rfl⟩
    unfold method divMethod
    simp [hc]
  · rintro s rfl
    refine ⟨withHeights s fun h => h * (1 / c), ?_, analyticBy_withHeights s _ _ fun x => by rw [mul_one_div]⟩
    unfold method divMethod mul
    simp [hc]

/-- A measured surface of ones divided by 2. -/
example (ev : SurfArith.Spline ℝ) : apply ev .div (.measured ⟨⟨1, 1, fun _ _ => 1⟩, some 1, none⟩) (.number 2) = .error (.py .typeError) := (C145_division_wrong ev _ _ (by exact trivial)).1

/-- **C145 is false: numbers on the left.** `c + a`, `c - a`, `c * a` and `c / a` raise `TypeError` for every number and every surface; so `sum` of a list of surfaces, which starts with 0, does too. -/
theorem C145_left_wrong (ev : SurfArith.Spline ℝ) (op : Op) (c : ℝ) (a : Operand) (ha : a.IsSurface) : apply ev op (.number c) a = .error (.py .typeError) := by
  unfold apply
  cases a with
  | number c => exact ha.elim
  | measured s => cases op <;> simp [special, defined]
  | analytic s => cases op <;> simp [special, defined]

/-- Twice a surface, while the surface times two is fine. -/
example (ev : SurfArith.Spline ℝ) : ∃ a : Operand, a.IsSurface ∧ apply ev .mul (.number 2) a = .error (.py .typeError) ∧ ∃ r, apply ev .mul a (.number 2) = .ok r := by
  obtain ⟨⟨r, h, _⟩, _⟩ := C145_numbers ev ⟨⟨1, 1, fun _ _ => 1⟩, some 1, none⟩ ⟨⟨1, 1, fun _ _ => 1⟩, some 1, none⟩ ⟨fun x _ => x, Geo.new, none⟩ ⟨fun x _ => x, Geo.new, none⟩ 2
  exact ⟨.measured ⟨⟨1, 1, fun _ _ => 1⟩, some 1, none⟩, trivial, C145_left_wrong ev _ _ _ (by exact trivial), _, h⟩

end Verif.Mixed
