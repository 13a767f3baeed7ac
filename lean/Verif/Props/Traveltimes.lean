import Verif.Model.Traveltimes
import Mathlib.Analysis.InnerProductSpace.PiL2
import Mathlib.Tactic.Linarith
import Mathlib.Tactic.Positivity
import Mathlib.Tactic.FieldSimp
import Mathlib.Tactic.Ring
import Mathlib.Tactic.NormNum

/-!
# C95, C96: traveltimes

C95: traveltimes asked for at a point of the grid are interpolated between nodes, and the modelled
arrivals of an event are the traveltimes from its hypocentre.  C96: tables for a homogeneous medium are
distance over velocity.
-/

namespace QM

open QM.Grid QM.Traveltimes

/-! ## Specification -/

/-- Straight-line distance between two points. -/
noncomputable def euclid (p q : V3 ℝ) : ℝ := dist (WithLp.toLp 2 p) (WithLp.toLp 2 q)

/-- `v` is a node of a grid with `n` nodes along each axis. -/
def IsNode (n : V3 ℕ) (v : V3 ℕ) : Prop := ∀ a, v a < n a

/-- `x` (counted in nodes) lies within a grid with `n` nodes along each axis. -/
def WithinGrid (n : V3 ℕ) (x : V3 ℝ) : Prop := ∀ a, 0 ≤ x a ∧ x a ≤ (n a : ℝ) - 1

/-- Where the point with index `x` is. -/
noncomputable def pointAt (ll spacing : V3 ℝ) (x : V3 ℝ) : V3 ℝ := fun a => ll a + x a * spacing a

/-- A node, as an index with fractions. -/
def asIndex (v : V3 ℕ) : V3 ℝ := fun a => (v a : ℝ)

/-! ## One axis -/

/-- Linear interpolation along one axis. -/
noncomputable def lerp (n : ℕ) (f : ℕ → ℝ) (x : ℝ) : ℝ :=
  (1 - (x - (cell n x : ℝ))) * f (cell n x) + (x - (cell n x : ℝ)) * f (cell n x + 1)

theorem interpolate_eq (n : V3 ℕ) (t : TableR) (x : V3 ℝ) :
    interpolate n t x = lerp (n 0) (fun i => lerp (n 1) (fun j => lerp (n 2)
      (fun k => t ![i, j, k]) (x 2)) (x 1)) (x 0) := rfl

theorem cell_spec {n : ℕ} (hn : 2 ≤ n) {x : ℝ} (h0 : 0 ≤ x) (h1 : x ≤ (n : ℝ) - 1) :
    cell n x + 1 < n ∧ (cell n x : ℝ) ≤ x ∧ x ≤ (cell n x : ℝ) + 1 := by
  have hc : ⌈x⌉ ≤ (n : ℤ) - 1 := Int.ceil_le.mpr (by push_cast; exact h1)
  have hc0 : 0 ≤ ⌈x⌉ := Int.ceil_nonneg h0
  have hle : (⌈x⌉ - 1).toNat ≤ n - 2 := by omega
  have hcell : cell n x = (⌈x⌉ - 1).toNat := by unfold cell; exact min_eq_left hle
  rw [hcell]
  refine ⟨by omega, ?_, ?_⟩
  · rcases eq_or_lt_of_le hc0 with h | h
    · rw [← h]; simpa using h0
    · have e : (((⌈x⌉ - 1).toNat : ℤ) : ℝ) = (⌈x⌉ : ℝ) - 1 := by
        rw [Int.toNat_of_nonneg (by omega)]; push_cast; ring
      have := Int.ceil_lt_add_one x
      have e' : (((⌈x⌉ - 1).toNat : ℕ) : ℝ) = (⌈x⌉ : ℝ) - 1 := by rw [← e]; norm_cast
      rw [e']; linarith
  · have hx := Int.le_ceil x
    have : (⌈x⌉ : ℤ) - 1 ≤ ((⌈x⌉ - 1).toNat : ℤ) := Int.self_le_toNat _
    have h' : ((⌈x⌉ : ℤ) : ℝ) - 1 ≤ (((⌈x⌉ - 1).toNat : ℕ) : ℝ) := by exact_mod_cast this
    linarith

theorem lerp_between {n : ℕ} (hn : 2 ≤ n) {f : ℕ → ℝ} {x m M : ℝ} (h0 : 0 ≤ x)
    (h1 : x ≤ (n : ℝ) - 1) (h : ∀ k : ℕ, k < n → |(k : ℝ) - x| < 1 → m ≤ f k ∧ f k ≤ M) :
    m ≤ lerp n f x ∧ lerp n f x ≤ M := by
  obtain ⟨hlt, hle, hge⟩ := cell_spec hn h0 h1
  unfold lerp
  set c := cell n x
  rcases eq_or_lt_of_le hle with e | l
  · rw [← e]
    simpa using h c (by omega) (by rw [e]; simp)
  rcases eq_or_lt_of_le hge with e | g
  · have := h (c + 1) hlt (by rw [e]; simp)
    rw [e]; simpa using this
  · have ha := h c (by omega) (by rw [abs_lt]; constructor <;> linarith)
    have hb := h (c + 1) hlt (by rw [abs_lt]; push_cast; constructor <;> linarith)
    constructor <;> nlinarith [ha.1, ha.2, hb.1, hb.2]

theorem lerp_affine (n : ℕ) (c b x : ℝ) {f : ℕ → ℝ} (h : ∀ k, f k = c + b * k) :
    lerp n f x = c + b * x := by
  unfold lerp; rw [h, h]; push_cast; ring

/-! ## C95 -/

/-- C95: at a node the traveltime served is that of the table. -/
theorem C95_at_node (n : V3 ℕ) (hn : ∀ a, 2 ≤ n a) (t : TableR) (v : V3 ℕ) (hv : IsNode n v) :
    interpolate n t (asIndex v) = t v := by
  have key : ∀ (m : ℕ) (f : ℕ → ℝ) (k : ℕ), 2 ≤ m → k < m → lerp m f (k : ℝ) = f k := by
    intro m f k hm hk
    have hk' : ((k : ℕ) : ℝ) ≤ (m : ℝ) - 1 := by
      have : (k : ℝ) + 1 ≤ m := by exact_mod_cast hk
      linarith
    have := lerp_between hm (f := f) (m := f k) (M := f k) (Nat.cast_nonneg k) hk' (by
      intro j _ hj
      have : |(j : ℤ) - (k : ℤ)| < 1 := by exact_mod_cast hj
      have : j = k := by rw [Int.abs_lt_one_iff] at this; omega
      subst this; exact ⟨le_refl _, le_refl _⟩)
    exact le_antisymm this.2 this.1
  rw [interpolate_eq]
  change lerp (n 0) _ ((v 0 : ℕ) : ℝ) = _
  rw [key _ _ _ (hn 0) (hv 0)]
  change lerp (n 1) _ ((v 1 : ℕ) : ℝ) = _
  rw [key _ _ _ (hn 1) (hv 1)]
  change lerp (n 2) _ ((v 2 : ℕ) : ℝ) = _
  rw [key _ _ _ (hn 2) (hv 2)]
  congr 1
  funext a; fin_cases a <;> rfl

/-- C95: within the grid the traveltime served lies between the smallest and the largest traveltime of
the nodes around the point, those less than one node away along each axis. -/
theorem C95_between (n : V3 ℕ) (hn : ∀ a, 2 ≤ n a) (t : TableR) (x : V3 ℝ) (hx : WithinGrid n x)
    (m M : ℝ) (h : ∀ v, IsNode n v → (∀ a, |(v a : ℝ) - x a| < 1) → m ≤ t v ∧ t v ≤ M) :
    m ≤ interpolate n t x ∧ interpolate n t x ≤ M := by
  rw [interpolate_eq]
  refine lerp_between (hn 0) (hx 0).1 (hx 0).2 fun i hi ci => ?_
  refine lerp_between (hn 1) (hx 1).1 (hx 1).2 fun j hj cj => ?_
  refine lerp_between (hn 2) (hx 2).1 (hx 2).2 fun k hk ck => ?_
  refine h _ ?_ ?_
  · intro a; fin_cases a <;> assumption
  · intro a; fin_cases a <;> assumption

/-- C95: if the traveltime grows evenly along each axis the value served is exact, at every point,
outside the grid as well. -/
theorem C95_exact_if_linear (n : V3 ℕ) (t : TableR) (c b₀ b₁ b₂ : ℝ)
    (h : ∀ v : V3 ℕ, t v = c + b₀ * v 0 + b₁ * v 1 + b₂ * v 2) (x : V3 ℝ) :
    interpolate n t x = c + b₀ * x 0 + b₁ * x 1 + b₂ * x 2 := by
  rw [interpolate_eq]
  have h2 : ∀ i j : ℕ, lerp (n 2) (fun k => t ![i, j, k]) (x 2) = (c + b₀ * i + b₁ * j) + b₂ * x 2 :=
    fun i j => lerp_affine _ _ _ _ fun k => by rw [h]; simp
  have h1 : ∀ i : ℕ, lerp (n 1) (fun j => lerp (n 2) (fun k => t ![i, j, k]) (x 2)) (x 1) =
      (c + b₀ * i + b₂ * x 2) + b₁ * x 1 :=
    fun i => lerp_affine _ _ _ _ fun j => by rw [h2]; ring
  rw [lerp_affine (n 0) (c + b₂ * x 2 + b₁ * x 1) b₀ (x 0) fun i => by rw [h1]; ring]
  ring

theorem rintR_close (x : ℝ) : |(rintR x : ℝ) - x| ≤ 1 / 2 := by
  have h1 := Int.floor_le x
  have h2 := Int.lt_floor_add_one x
  unfold rintR
  split_ifs <;> push_cast <;> rw [abs_le] <;> constructor <;> linarith

theorem rintR_nat (k : ℕ) : rintR (k : ℝ) = k := by
  unfold rintR
  have : ⌊(k : ℝ)⌋ = (k : ℤ) := Int.floor_natCast k
  rw [this, if_pos (by norm_num)]

/-- The node used for the arrivals of an event: it is in the grid, and nearest to the hypocentre. -/
theorem node_of_hypocentre (ll spacing : V3 ℝ) (hs : ∀ a, 0 < spacing a) (n : V3 ℕ) (x : V3 ℝ)
    (hx : WithinGrid n x) :
    ∃ v, IsNode n v ∧ (∀ a, |(v a : ℝ) - x a| ≤ 1 / 2) ∧
      (fun a => ((nodeOf ll spacing (pointAt ll spacing x) a : ℤ) : ℝ)) = asIndex v := by
  have e : ∀ a, nodeOf ll spacing (pointAt ll spacing x) a = rintR (x a) := by
    intro a
    unfold nodeOf pointAt
    congr 1
    have := (hs a).ne'
    field_simp; ring
  have hb : ∀ a, 0 ≤ rintR (x a) ∧ rintR (x a) < n a := by
    intro a
    have hc := abs_le.mp (rintR_close (x a))
    have h0 := (hx a).1
    have h1 := (hx a).2
    constructor
    · have : (-1 : ℝ) < (rintR (x a) : ℝ) := by linarith
      have : (-1 : ℤ) < rintR (x a) := by exact_mod_cast this
      omega
    · have : (rintR (x a) : ℝ) < (n a : ℝ) := by linarith
      exact_mod_cast this
  have ec : ∀ a, (((rintR (x a)).toNat : ℕ) : ℝ) = (rintR (x a) : ℝ) := by
    intro a
    have := Int.toNat_of_nonneg (hb a).1
    exact_mod_cast congrArg (fun z : ℤ => (z : ℝ)) this
  refine ⟨fun a => (rintR (x a)).toNat, fun a => ?_, fun a => ?_, ?_⟩
  · have := hb a
    change (rintR (x a)).toNat < n a
    omega
  · rw [ec]; exact rintR_close (x a)
  · funext a; rw [e]; exact (ec a).symm

/-- C95, for modelled arrivals: the traveltime used for an event whose hypocentre is in the grid is the
table's value at a node at most half a node away along each axis.

Missing: it is not the traveltime interpolated at the hypocentre, see `C95_violated`. -/
theorem C95_modelled_partial (ll spacing : V3 ℝ) (hs : ∀ a, 0 < spacing a) (n : V3 ℕ)
    (hn : ∀ a, 2 ≤ n a) (t : TableR) (x : V3 ℝ) (hx : WithinGrid n x) :
    ∃ v, IsNode n v ∧ (∀ a, |(v a : ℝ) - x a| ≤ 1 / 2) ∧
      modelled ll spacing n t (pointAt ll spacing x) = t v := by
  obtain ⟨v, hv, hc, e⟩ := node_of_hypocentre ll spacing hs n x hx
  refine ⟨v, hv, hc, ?_⟩
  unfold modelled
  rw [e, C95_at_node n hn t v hv]

/-- C95, for modelled arrivals: exact if the hypocentre is a node. -/
theorem C95_modelled_at_node (ll spacing : V3 ℝ) (hs : ∀ a, 0 < spacing a) (n : V3 ℕ)
    (hn : ∀ a, 2 ≤ n a) (t : TableR) (v : V3 ℕ) (hv : IsNode n v) :
    modelled ll spacing n t (pointAt ll spacing (asIndex v)) = t v := by
  have e : (fun a => ((nodeOf ll spacing (pointAt ll spacing (asIndex v)) a : ℤ) : ℝ)) = asIndex v := by
    funext a
    have : nodeOf ll spacing (pointAt ll spacing (asIndex v)) a = rintR ((v a : ℕ) : ℝ) := by
      unfold nodeOf pointAt asIndex
      congr 1
      have := (hs a).ne'
      field_simp; ring
    rw [this, rintR_nat]; rfl
  unfold modelled
  rw [e, C95_at_node n hn t v hv]

/-! ## Homogeneous medium -/

theorem homogeneous_eq (ll spacing st : V3 ℝ) (vel : ℝ) (v : V3 ℕ) :
    homogeneous ll spacing st vel v = euclid (pointAt ll spacing (asIndex v)) st / vel := by
  unfold homogeneous euclid
  rw [EuclideanSpace.dist_eq, Fin.sum_univ_three]
  simp only [Real.dist_eq, sq_abs]
  rfl

theorem euclid_triangle (p q r : V3 ℝ) : |euclid p r - euclid q r| ≤ euclid p q := by
  unfold euclid
  exact abs_dist_sub_le _ _ _

/-- C95, size of the error: in a homogeneous medium the modelled traveltime differs from the true one
by at most the time along half the diagonal of a cell. -/
theorem C95_modelled_error_partial (ll spacing : V3 ℝ) (hs : ∀ a, 0 < spacing a) (n : V3 ℕ)
    (hn : ∀ a, 2 ≤ n a) (st : V3 ℝ) (vel : ℝ) (hv : 0 < vel) (x : V3 ℝ) (hx : WithinGrid n x) :
    |modelled ll spacing n (homogeneous ll spacing st vel) (pointAt ll spacing x) -
        euclid (pointAt ll spacing x) st / vel| ≤ euclid spacing 0 / 2 / vel := by
  obtain ⟨v, hv', hc, e⟩ :=
    C95_modelled_partial ll spacing hs n hn (homogeneous ll spacing st vel) x hx
  rw [e, homogeneous_eq, ← sub_div, abs_div, abs_of_pos hv]
  refine div_le_div_of_nonneg_right (le_trans (euclid_triangle _ _ _) ?_) hv.le
  unfold euclid
  rw [EuclideanSpace.dist_eq, EuclideanSpace.dist_eq]
  have h4 : Real.sqrt (∑ a, dist (spacing a) 0 ^ 2) / 2 =
      Real.sqrt ((∑ a, dist (spacing a) 0 ^ 2) / 4) := by
    rw [Real.sqrt_div' _ (by norm_num : (0 : ℝ) ≤ 4),
      show (4 : ℝ) = 2 ^ 2 by norm_num, Real.sqrt_sq (by norm_num)]
  change _ ≤ Real.sqrt (∑ a, dist (spacing a) 0 ^ 2) / 2
  rw [h4]
  refine Real.sqrt_le_sqrt ?_
  rw [Finset.sum_div]
  refine Finset.sum_le_sum fun a _ => ?_
  have : dist (pointAt ll spacing (asIndex v) a) (pointAt ll spacing x a) =
      |(v a : ℝ) - x a| * spacing a := by
    rw [Real.dist_eq]
    unfold pointAt asIndex
    rw [show ll a + (v a : ℝ) * spacing a - (ll a + x a * spacing a) =
      ((v a : ℝ) - x a) * spacing a by ring, abs_mul, abs_of_pos (hs a)]
  change dist (pointAt ll spacing (asIndex v) a) (pointAt ll spacing x a) ^ 2 ≤ _
  rw [this, Real.dist_eq, sub_zero, sq_abs, mul_pow]
  have h2 : |(v a : ℝ) - x a| ^ 2 ≤ 1 / 4 := by
    have := hc a
    nlinarith [abs_nonneg ((v a : ℝ) - x a)]
  nlinarith [sq_nonneg (spacing a)]

/-- C95 is violated: in a grid of 2 × 2 × 2 nodes with traveltimes growing by one per node along one
axis, an event a quarter of the way along has traveltime 1/4, which is what asking at its index
gives, but its arrival is modelled with traveltime 0. -/
theorem C95_violated :
    ∃ (ll spacing : V3 ℝ) (n : V3 ℕ) (t : TableR) (x : V3 ℝ), WithinGrid n x ∧
      (∀ v, t v = v 0) ∧ interpolate n t x = 1 / 4 ∧
      modelled ll spacing n t (pointAt ll spacing x) = 0 := by
  refine ⟨fun _ => 0, fun _ => 1, fun _ => 2, fun v => (v 0 : ℝ), ![1 / 4, 0, 0], ?_, fun _ => rfl,
    ?_, ?_⟩
  · intro a; fin_cases a <;> norm_num
  · rw [C95_exact_if_linear _ _ 0 1 0 0 (fun v => by ring)]
    simp
  · unfold modelled
    rw [C95_exact_if_linear _ _ 0 1 0 0 (fun v => by ring)]
    have : nodeOf (fun _ => 0) (fun _ => 1)
        (pointAt (fun _ => 0) (fun _ => 1) ![1 / 4, 0, 0]) 0 = 0 := by
      unfold nodeOf pointAt
      have : ((0 : ℝ) + (![1 / 4, 0, 0] : V3 ℝ) 0 * 1 - 0) / 1 = 1 / 4 := by simp
      rw [this]
      unfold rintR
      have hf : ⌊(1 / 4 : ℝ)⌋ = 0 := by rw [Int.floor_eq_iff]; norm_num
      rw [hf, if_pos (by norm_num)]
    rw [this]; simp

/-- A point of a 3 × 4 × 5 grid that meets the hypotheses, away from nodes. -/
example : WithinGrid ![3, 4, 5] ![1 / 3, 5 / 2, 4] ∧ ∀ a, 2 ≤ (![3, 4, 5] : V3 ℕ) a := by
  refine ⟨?_, ?_⟩ <;> intro a <;> fin_cases a <;> norm_num

/-! ## C96 -/

/-- The keyword with the velocity of a phase: `vp` for P, `vs` for S. -/
def velocityOf (a : Args) (p : Traveltimes.Str) : Option ℝ := a.velocity ('v' :: p.map Char.toLower)

theorem homogeneousPhases_ok (a : Args) (ps : List Traveltimes.Str) (vel : Traveltimes.Str → ℝ)
    (h : ∀ p ∈ ps, velocityOf a p = some (vel p)) :
    homogeneousPhases a ps = .ok (ps.map fun p =>
      (p, a.stations.map fun s => (s.1, homogeneous a.ll a.spacing s.2 (vel p)))) := by
  induction ps with
  | nil => rfl
  | cons p ps ih =>
    have h1 := h p (by simp)
    unfold velocityOf at h1
    unfold homogeneousPhases lower
    rw [h1, ih fun q hq => h q (by simp [hq])]
    rfl

theorem homogeneousPhases_error (a : Args) (ps : List Traveltimes.Str)
    (h : ∃ p ∈ ps, velocityOf a p = none) : homogeneousPhases a ps = .error .typeError := by
  induction ps with
  | nil => simp at h
  | cons p ps ih =>
    unfold homogeneousPhases lower
    rcases hv : a.velocity ('v' :: p.map Char.toLower) with _ | v
    · rfl
    · obtain ⟨q, hq, hn⟩ := h
      rcases List.mem_cons.mp hq with rfl | hq
      · unfold velocityOf at hn; rw [hv] at hn; cases hn
      · simp only [ih ⟨q, hq, hn⟩]

/-- C96: if a velocity is given for every phase, there is one table per phase and station, in order,
and its value at a node is the straight-line distance from the node to the station over the velocity
of the phase. -/
theorem C96_homogeneous_tables (a : Args) (ps : List Traveltimes.Str) (vel : Traveltimes.Str → ℝ)
    (h : ∀ p ∈ ps, velocityOf a p = some (vel p)) :
    computeTraveltimes a "homogeneous".toList ps = .ok (ps.map fun p =>
      (p, a.stations.map fun s =>
        (s.1, fun v => euclid (pointAt a.ll a.spacing (asIndex v)) s.2 / vel p))) := by
  have : computeTraveltimes a "homogeneous".toList ps = homogeneousPhases a ps := by
    unfold computeTraveltimes
    rw [if_neg (by decide : ¬ "homogeneous".toList = "1dsweep".toList)]
    exact if_pos rfl
  rw [this, homogeneousPhases_ok a ps vel h]
  have e : ∀ (st : V3 ℝ) (c : ℝ), homogeneous a.ll a.spacing st c =
      fun v => euclid (pointAt a.ll a.spacing (asIndex v)) st / c :=
    fun st c => funext fun v => homogeneous_eq _ _ _ _ v
  simp only [e]

/-- C96: a phase without velocity, or a method that needs a velocity model without one, is a
`TypeError`; `3dfmm` is a `NotImplementedError`; other names are a `ValueError`. -/
theorem C96_refused (a : Args) (ps : List Traveltimes.Str) :
    ((∃ p ∈ ps, velocityOf a p = none) →
      computeTraveltimes a "homogeneous".toList ps = .error .typeError) ∧
    (∀ m ∈ ["1dfmm", "1dnlloc", "1dsweep"], a.vmod = false →
      computeTraveltimes a m.toList ps = .error .typeError) ∧
    computeTraveltimes a "3dfmm".toList ps = .error .notImplemented ∧
    (∀ m : String, m ∉ ["homogeneous", "1dfmm", "3dfmm", "1dnlloc", "1dsweep"] →
      computeTraveltimes a m.toList ps = .error .valueError) := by
  refine ⟨fun h => ?_, ?_, ?_, ?_⟩
  · have : computeTraveltimes a "homogeneous".toList ps = homogeneousPhases a ps := by
      unfold computeTraveltimes
      rw [if_neg (by decide : ¬ "homogeneous".toList = "1dsweep".toList)]
      exact if_pos rfl
    rw [this, homogeneousPhases_error a ps h]
  · intro m hm hv
    simp only [List.mem_cons, List.not_mem_nil, or_false] at hm
    rcases hm with rfl | rfl | rfl <;> simp [computeTraveltimes, hv]
  · simp [computeTraveltimes]
  · intro m hm
    simp only [List.mem_cons, List.not_mem_nil, or_false, not_or] at hm
    obtain ⟨h1, h2, h3, h4, h5⟩ := hm
    have e : ∀ s : String, m ≠ s → ¬ m.toList = s.toList := fun s hs he =>
      hs (String.toList_inj.mp he)
    unfold computeTraveltimes
    simp only [if_neg (e _ h5), if_neg (e _ h1), if_neg (e _ h2), if_neg (e _ h3), if_neg (e _ h4)]

/-- C96: the methods with a velocity model give one set of tables per phase, and `1dsweep` is the same as
`1dnlloc`. -/
theorem C96_model_methods (a : Args) (ps : List Traveltimes.Str) (h : a.vmod = true) :
    computeTraveltimes a "1dfmm".toList ps = .ok (ps.map fun p => (p, a.fmm p)) ∧
    computeTraveltimes a "1dnlloc".toList ps = .ok (ps.map fun p => (p, a.nlloc p)) ∧
    computeTraveltimes a "1dsweep".toList ps = .ok (ps.map fun p => (p, a.nlloc p)) := by
  refine ⟨?_, ?_, ?_⟩ <;> simp [computeTraveltimes, h]

/-- C96: with positive velocity a table is never negative, zero just at a node where the station is,
differs between two nodes by at most the time of the straight path between them, and a slower phase
arrives later everywhere but at the station. -/
theorem C96_physical (ll spacing st : V3 ℝ) (vel : ℝ) (hv : 0 < vel) (u v : V3 ℕ) :
    0 ≤ homogeneous ll spacing st vel u ∧
    (homogeneous ll spacing st vel u = 0 ↔ pointAt ll spacing (asIndex u) = st) ∧
    |homogeneous ll spacing st vel u - homogeneous ll spacing st vel v| ≤
      euclid (pointAt ll spacing (asIndex u)) (pointAt ll spacing (asIndex v)) / vel ∧
    (∀ slow, 0 < slow → slow < vel → pointAt ll spacing (asIndex u) ≠ st →
      homogeneous ll spacing st vel u < homogeneous ll spacing st slow u) := by
  simp only [homogeneous_eq]
  have zero : ∀ p q : V3 ℝ, euclid p q = 0 ↔ p = q := by
    intro p q
    unfold euclid
    rw [dist_eq_zero]
    exact (WithLp.toLp_injective 2).eq_iff
  have nonneg : ∀ p q : V3 ℝ, 0 ≤ euclid p q := fun p q => dist_nonneg
  refine ⟨div_nonneg (nonneg _ _) hv.le, ?_, ?_, ?_⟩
  · rw [div_eq_zero_iff, zero]
    constructor
    · rintro (h | h)
      · exact h
      · exact absurd h hv.ne'
    · exact Or.inl
  · rw [← sub_div, abs_div, abs_of_pos hv]
    exact div_le_div_of_nonneg_right (euclid_triangle _ _ _) hv.le
  · intro slow hs hlt hne
    have : 0 < euclid (pointAt ll spacing (asIndex u)) st :=
      lt_of_le_of_ne (nonneg _ _) fun h => hne ((zero _ _).mp h.symm)
    exact div_lt_div_of_pos_left this hs hlt

/-- Two stations and velocities for P and S. -/
noncomputable def exTTArgs : Args where
  ll := ![-10, -10, 0]
  spacing := ![1, 1, 1]
  stations := [("ST1".toList, ![0, 0, 0]), ("ST2".toList, ![3, -2, 0])]
  velocity := fun s => if s = "vp".toList then some 5 else if s = "vs".toList then some 3 else none
  vmod := false
  fmm := fun _ => []
  nlloc := fun _ => []

example : ∀ p ∈ ["P".toList, "S".toList],
    velocityOf exTTArgs p = some (if p = "P".toList then 5 else 3) := by
  intro p hp
  simp only [List.mem_cons, List.not_mem_nil, or_false] at hp
  rcases hp with rfl | rfl
  · simp [velocityOf, exTTArgs]
  · simp [velocityOf, exTTArgs]

/-- With the phase `Q` there is no velocity. -/
example : ∃ p ∈ ["P".toList, "Q".toList], velocityOf exTTArgs p = none :=
  ⟨"Q".toList, by simp, by simp [velocityOf, exTTArgs]⟩

end QM
