import Verif.Lemmas.MhdFlux
import Mathlib.Tactic.LinearCombination

/-! Helper lemmas: what follows from the form of a step - fluxes through faces and a curl of edge values
- whatever fluxes and edge values it uses. -/

namespace Verif

open K Function ROps Spec

variable {d3 : Bool} {S : MSettings ℝ} {P : Grid} {B : Sides} {dt : ℝ} {it : Nat}
  {F : Cell → Dir → MState ℝ} {E : Cell → EmfDir → ℝ} {m m1 m' : Addr → ℝ}

/-- The step fills the ghost cells and then adds differences of `F` and the curl of `E`. -/
structure StepForm (d3 : Bool) (S : MSettings ℝ) (P : Grid) (B : Sides) (dt : ℝ) (it : Nat)
    (F : Cell → Dir → MState ℝ) (E : Cell → EmfDir → ℝ) (m m1 m' : Addr → ℝ) : Prop where
  filled : FilledMem d3 true P B (bufIn it) m m1
  upd : ∀ c, P.box d3 c → P.inner d3 c → mfield m' (bufOut it) c =
    emfUpd d3 S dt E c (fluxUpd d3 S dt F c (dirs d3) (mfield m1 (bufIn it) c))

/-- Equal surroundings give equal fluxes and edge values. -/
def SameFlow (d3 : Bool) (U : Cell → MState ℝ) (F : Cell → Dir → MState ℝ) (E : Cell → EmfDir → ℝ) :
    Prop :=
  ∀ (t : Int × Int × Int) (c : Cell), (∀ c', Within d3 (-2) 2 c c' → U c' = U (c'.move t)) →
    (∀ d ∈ dirs d3, F c d = F (c.move t) d) ∧ ∀ e ∈ emfDirs d3, E c e = E (c.move t) e

theorem StepForm.total (h : BoxSetup d3 8 3 P B) (f : StepForm d3 S P B dt it F E m m1 m')
    {v : Nat} (hv : v < 8) :
    Spec.total d3 P m' (bufOut it) v = Spec.total d3 P m (bufIn it) v +
      netInflow d3 P (effFlux d3 S dt F E v .x)
        (effFlux d3 S dt F E v .y)
        (effFlux d3 S dt F E v .z) := by
  set G := effFlux d3 S dt F E v with hG
  have e : Spec.total d3 P m' (bufOut it) v = interiorSum d3 P fun c =>
      m (c.at (bufIn it) v) + (G .x c - G .x (c.up .x)) + (G .y c - G .y (c.up .y)) +
      (if d3 then G .z c - G .z (c.up .z) else 0) := by
    refine interiorSum_congr fun i j k hi hj hk => ?_
    obtain ⟨b1, b2⟩ := mcell_box h (by decide) hi hj hk
    have := f.upd _ b1 b2
    rw [← f.filled.interior b1 b2 (h.nv ▸ hv), ← mfield_get m1 _ _ hv, hG, ← upd_get _ _ _ _ hv, ← this,
      mfield_get _ _ _ hv]
    rfl
  rw [e]
  simp only [netInflow]
  rw [← telescope_x, ← telescope_y]
  cases d3
  · simp only [Bool.false_eq_true, if_false, add_zero]
    rw [interiorSum_add, interiorSum_add]
    simp only [Spec.total, Cell.at]; ring
  · simp only [if_true]
    rw [← telescope_z, interiorSum_add, interiorSum_add, interiorSum_add]
    simp only [Spec.total, Cell.at]; ring

theorem StepForm.face (h : BoxSetup d3 8 3 P B) (f : StepForm d3 S P B dt it F E m m1 m')
    {d : Dir} (hd : d ∈ dirs d3) {i j k : Nat} (hi : i < P.nx.toNat) (hj : j < P.ny.toNat)
    (hk : k < depth d3 P) :
    m' ((cell d3 P i j k).at (bufOut it) d.bvar) = m ((cell d3 P i j k).at (bufIn it) d.bvar) +
      faceInc d3 S dt E d (cell d3 P i j k) := by
  obtain ⟨b1, b2⟩ := mcell_box h (by decide) hi hj hk
  have hv : d.bvar < 8 := by cases d <;> decide
  rw [← f.filled.interior b1 b2 (h.nv ▸ hv), ← mfield_get m' _ _ hv, ← mfield_get m1 _ _ hv,
    f.upd _ b1 b2, upd_get _ _ _ _ hv]
  cases d3
  · cases d <;> simp [dirs] at hd <;>
    simp only [Dir.bvar, IA, IB, effFlux, faceInc, dtOver, Bool.false_eq_true, if_false] <;> ring
  · cases d <;> simp only [Dir.bvar, IA, IB, IC, effFlux, faceInc, dtOver, if_true] <;> ring

/-- The divergence is unchanged in cells whose upper neighbours are interior. -/
theorem StepForm.divB_inside (h : BoxSetup d3 8 3 P B) (f : StepForm d3 S P B dt it F E m m1 m')
    {i j k : Nat} (hi : i + 1 < P.nx.toNat)
    (hj : j + 1 < P.ny.toNat) (hk : d3 = true → k + 1 < P.nz.toNat) :
    divB d3 S P m' (bufOut it) i j k = divB d3 S P m (bufIn it) i j k := by
  have key := faceInc_div (d3 := d3) (S := S) (dt := dt) E (cell d3 P i j k)
  cases d3
  · have e : ∀ a b k, cell false P a b k = cell false P a b 0 := fun _ _ _ => rfl
    have e0 := fun d hd => f.face h (d := d) hd (i := i) (j := j) (k := 0) (by omega)
      (by omega) (by simp [depth])
    have ex := f.face h (d := .x) (by simp [dirs]) (i := i + 1) (j := j) (k := 0) (by omega)
      (by omega) (by simp [depth])
    have ey := f.face h (d := .y) (by simp [dirs]) (i := i) (j := j + 1) (k := 0) (by omega)
      (by omega) (by simp [depth])
    have e5 := e0 .x (by simp [dirs])
    have e6 := e0 .y (by simp [dirs])
    simp only [Dir.bvar, IA, IB, Cell.at] at e5 e6 ex ey
    unfold divB divergence
    simp only [e _ _ k, Bool.false_eq_true, if_false, e5, e6, ex, ey] at key ⊢
    rw [cell_up_x, cell_up_y]
    linear_combination key
  · have hk := hk rfl
    have e0 := fun d hd => f.face h (d := d) hd (i := i) (j := j) (k := k) (by omega)
      (by omega) (by simp [depth]; omega)
    have ex := f.face h (d := .x) (by simp [dirs]) (i := i + 1) (j := j) (k := k) (by omega)
      (by omega) (by simp [depth]; omega)
    have ey := f.face h (d := .y) (by simp [dirs]) (i := i) (j := j + 1) (k := k) (by omega)
      (by omega) (by simp [depth]; omega)
    have ez := f.face h (d := .z) (by simp [dirs]) (i := i) (j := j) (k := k + 1) (by omega)
      (by omega) (by simp [depth]; omega)
    have e5 := e0 .x (by simp [dirs])
    have e6 := e0 .y (by simp [dirs])
    have e7 := e0 .z (by simp [dirs])
    simp only [Dir.bvar, IA, IB, IC, Cell.at] at e5 e6 e7 ex ey ez
    unfold divB divergence
    simp only [if_true, e5, e6, e7, ex, ey, ez] at key ⊢
    rw [cell_up_x, cell_up_y, cell_up_z]
    linear_combination key

theorem succ_mod {i n : Nat} (hi : i < n) : (i + 1 < n ∧ (i + 1) % n = i + 1) ∨
    (i + 1 = n ∧ (i + 1) % n = 0) := by
  by_cases h : i + 1 < n
  · exact Or.inl ⟨h, Nat.mod_eq_of_lt h⟩
  · have : i + 1 = n := by omega
    exact Or.inr ⟨this, by rw [this, Nat.mod_self]⟩

/-- On a periodic domain the divergence is unchanged in all cells. -/
theorem StepForm.divB_periodic (h : BoxSetup d3 8 3 P (Sides.all .periodic))
    (f : StepForm d3 S P (Sides.all .periodic) dt it F E m m1 m')
    (hs : SameFlow d3 (mfield m1 (bufIn it)) F E) {i j k : Nat} (hi : i < P.nx.toNat)
    (hj : j < P.ny.toNat) (hk : d3 = true → k < P.nz.toNat) :
    divBPeriodic d3 S P m' (bufOut it) i j k = divBPeriodic d3 S P m (bufIn it) i j k := by
  have hnx := h.nx
  have hny := h.ny
  have hg := h.gw
  have key := faceInc_div (d3 := d3) (S := S) (dt := dt) E (cell d3 P i j k)
  have px : ∀ j k, j ≤ P.ny.toNat → (d3 = true → k ≤ P.nz.toNat) → ∀ e ∈ emfDirs d3,
      E (cell d3 P 0 j k) e = E (cell d3 P P.nx.toNat j k) e := fun j k hj hk e he => by
    rw [← move_x (by omega)]
    exact (hs _ _ fun c' hw => surround_x h f.filled hj hk hw).2 e he
  have py : ∀ i k, i ≤ P.nx.toNat → (d3 = true → k ≤ P.nz.toNat) → ∀ e ∈ emfDirs d3,
      E (cell d3 P i 0 k) e = E (cell d3 P i P.ny.toNat k) e := fun i k hi hk e he => by
    rw [← move_y (by omega)]
    exact (hs _ _ fun c' hw => surround_y h f.filled hi hk hw).2 e he
  cases d3
  · have e : ∀ a b k, cell false P a b k = cell false P a b 0 := fun _ _ _ => rfl
    have fc := fun d hd i j hi hj => f.face h (d := d) hd (i := i) (j := j) (k := 0) hi
      hj (by simp [depth])
    have e5 := fc .x (by simp [dirs]) i j hi hj
    have e6 := fc .y (by simp [dirs]) i j hi hj
    have wx : faceInc false S dt E .x (cell false P ((i + 1) % P.nx.toNat) j 0) =
        faceInc false S dt E .x (cell false P (i + 1) j 0) := by
      rcases succ_mod hi with ⟨h1, h2⟩ | ⟨h1, h2⟩
      · rw [h2]
      · rw [h2, h1]
        simp only [faceInc, Bool.false_eq_true, if_false, ← cell_up_y]
        rw [px _ _ (by omega) (fun e => by cases e) _ (by simp [emfDirs]),
          px _ _ (by omega) (fun e => by cases e) _ (by simp [emfDirs])]
    have wy : faceInc false S dt E .y (cell false P i ((j + 1) % P.ny.toNat) 0) =
        faceInc false S dt E .y (cell false P i (j + 1) 0) := by
      rcases succ_mod hj with ⟨h1, h2⟩ | ⟨h1, h2⟩
      · rw [h2]
      · rw [h2, h1]
        simp only [faceInc, Bool.false_eq_true, if_false, ← cell_up_x]
        rw [py _ _ (by omega) (fun e => by cases e) _ (by simp [emfDirs]),
          py _ _ (by omega) (fun e => by cases e) _ (by simp [emfDirs])]
    have ex := fc .x (by simp [dirs]) ((i + 1) % P.nx.toNat) j (Nat.mod_lt _ (by omega)) hj
    have ey := fc .y (by simp [dirs]) i ((j + 1) % P.ny.toNat) hi (Nat.mod_lt _ (by omega))
    rw [wx, cell_up_x] at ex
    rw [wy, cell_up_y] at ey
    simp only [Dir.bvar, IA, IB, Cell.at] at e5 e6 ex ey
    unfold divBPeriodic divergence
    simp only [e _ _ k, Bool.false_eq_true, if_false, e5, e6, ex, ey] at key ⊢
    linear_combination key
  · have hk := hk rfl
    have hnz := h.nz rfl
    have pz : ∀ i j, i ≤ P.nx.toNat → j ≤ P.ny.toNat → ∀ e ∈ emfDirs true,
        E (cell true P i j 0) e = E (cell true P i j P.nz.toNat) e := fun i j hi hj e he => by
      rw [← move_z (by omega)]
      exact (hs _ _ fun c' hw => surround_z h f.filled rfl hi hj hw).2 e he
    have fc := fun d hd i j k hi hj hk => f.face h (d := d) hd (i := i) (j := j) (k := k) hi
      hj hk
    have hd : ∀ k, k < P.nz.toNat → k < depth true P := fun k hk => by simpa [depth] using hk
    have e5 := fc .x (by simp [dirs]) i j k hi hj (hd _ hk)
    have e6 := fc .y (by simp [dirs]) i j k hi hj (hd _ hk)
    have e7 := fc .z (by simp [dirs]) i j k hi hj (hd _ hk)
    have wx : faceInc true S dt E .x (cell true P ((i + 1) % P.nx.toNat) j k) =
        faceInc true S dt E .x (cell true P (i + 1) j k) := by
      rcases succ_mod hi with ⟨h1, h2⟩ | ⟨h1, h2⟩
      · rw [h2]
      · rw [h2, h1]
        simp only [faceInc, if_true, ← cell_up_y, ← cell_up_z]
        rw [px j k (by omega) (fun _ => by omega) _ (by simp [emfDirs]),
          px j k (by omega) (fun _ => by omega) _ (by simp [emfDirs]),
          px (j + 1) k (by omega) (fun _ => by omega) _ (by simp [emfDirs]),
          px j (k + 1) (by omega) (fun _ => by omega) _ (by simp [emfDirs])]
    have wy : faceInc true S dt E .y (cell true P i ((j + 1) % P.ny.toNat) k) =
        faceInc true S dt E .y (cell true P i (j + 1) k) := by
      rcases succ_mod hj with ⟨h1, h2⟩ | ⟨h1, h2⟩
      · rw [h2]
      · rw [h2, h1]
        simp only [faceInc, if_true, ← cell_up_x, ← cell_up_z]
        rw [py i k (by omega) (fun _ => by omega) _ (by simp [emfDirs]),
          py i k (by omega) (fun _ => by omega) _ (by simp [emfDirs]),
          py (i + 1) k (by omega) (fun _ => by omega) _ (by simp [emfDirs]),
          py i (k + 1) (by omega) (fun _ => by omega) _ (by simp [emfDirs])]
    have wz : faceInc true S dt E .z (cell true P i j ((k + 1) % P.nz.toNat)) =
        faceInc true S dt E .z (cell true P i j (k + 1)) := by
      rcases succ_mod hk with ⟨h1, h2⟩ | ⟨h1, h2⟩
      · rw [h2]
      · rw [h2, h1]
        simp only [faceInc, ← cell_up_x, ← cell_up_y]
        rw [pz i j (by omega) (by omega) _ (by simp [emfDirs]),
          pz i j (by omega) (by omega) _ (by simp [emfDirs]),
          pz (i + 1) j (by omega) (by omega) _ (by simp [emfDirs]),
          pz i (j + 1) (by omega) (by omega) _ (by simp [emfDirs])]
    have ex := fc .x (by simp [dirs]) ((i + 1) % P.nx.toNat) j k (Nat.mod_lt _ (by omega)) hj
      (hd _ hk)
    have ey := fc .y (by simp [dirs]) i ((j + 1) % P.ny.toNat) k hi (Nat.mod_lt _ (by omega))
      (hd _ hk)
    have ez := fc .z (by simp [dirs]) i j ((k + 1) % P.nz.toNat) hi hj
      (hd _ (Nat.mod_lt _ (by omega)))
    rw [wx, cell_up_x] at ex
    rw [wy, cell_up_y] at ey
    rw [wz, cell_up_z] at ez
    simp only [Dir.bvar, IA, IB, IC, Cell.at] at e5 e6 e7 ex ey ez
    unfold divBPeriodic divergence
    simp only [if_true, e5, e6, e7, ex, ey, ez] at key ⊢
    linear_combination key

theorem StepForm.conserves (h : BoxSetup d3 8 3 P (Sides.all .periodic))
    (f : StepForm d3 S P (Sides.all .periodic) dt it F E m m1 m')
    (hs : SameFlow d3 (mfield m1 (bufIn it)) F E) (v : Nat)
    (hvar : v < 8) : Spec.total d3 P m' (bufOut it) v = Spec.total d3 P m (bufIn it) v := by
  have hnx := h.nx
  have hny := h.ny
  have hg := h.gw
  have hdep : ∀ k, k < depth d3 P → d3 = true → k ≤ P.nz.toNat := by
    rintro k hk rfl; simp only [depth, if_true] at hk; omega
  rw [f.total h hvar, add_eq_left]
  simp only [netInflow]
  have zx : (∑ j ∈ Finset.range P.ny.toNat, ∑ k ∈ Finset.range (depth d3 P),
      (effFlux d3 S dt F E v .x (cell d3 P 0 j k) -
        effFlux d3 S dt F E v .x (cell d3 P P.nx.toNat j k))) = 0 := by
    refine Finset.sum_eq_zero fun j hj => Finset.sum_eq_zero fun k hk => ?_
    have hj := Finset.mem_range.1 hj
    have hk := Finset.mem_range.1 hk
    have s := hs (P.nx, 0, 0) (cell d3 P 0 j k) fun c' hw => surround_x h f.filled (j := j) (by omega) (hdep k hk) hw
    rw [effFlux_same (by simp [dirs_mem]) (s.1 _ (by simp [dirs_mem])) s.2, move_x (by omega), sub_self]
  have zy : (∑ i ∈ Finset.range P.nx.toNat, ∑ k ∈ Finset.range (depth d3 P),
      (effFlux d3 S dt F E v .y (cell d3 P i 0 k) -
        effFlux d3 S dt F E v .y (cell d3 P i P.ny.toNat k))) = 0 := by
    refine Finset.sum_eq_zero fun i hi => Finset.sum_eq_zero fun k hk => ?_
    have hi := Finset.mem_range.1 hi
    have hk := Finset.mem_range.1 hk
    have s := hs (0, P.ny, 0) (cell d3 P i 0 k) fun c' hw => surround_y h f.filled (i := i) (by omega) (hdep k hk) hw
    rw [effFlux_same (by simp [dirs_mem]) (s.1 _ (by simp [dirs_mem])) s.2, move_y (by omega), sub_self]
  rw [zx, zy]
  cases d3
  · simp
  · simp only [if_true, zero_add]
    have hnz := h.nz rfl
    refine Finset.sum_eq_zero fun i hi => Finset.sum_eq_zero fun j hj => ?_
    have hi := Finset.mem_range.1 hi
    have hj := Finset.mem_range.1 hj
    have s := hs (0, 0, P.nz) (cell true P i j 0) fun c' hw => surround_z h f.filled rfl (i := i) (j := j) (by omega) (by omega) hw
    rw [effFlux_same (by simp [dirs_mem]) (s.1 _ (by simp [dirs_mem])) s.2, move_z (by omega), sub_self]

/-- One cell along a direction. -/
def unitStep : Dir → Int × Int × Int
  | .x => (1, 0, 0)
  | .y => (0, 1, 0)
  | .z => (0, 0, 1)

/-- A uniform state stays as it is. -/
theorem StepForm.uniform (h : BoxSetup d3 8 3 P B) (f : StepForm d3 S P B dt it F E m m1 m')
    (hs : SameFlow d3 (mfield m1 (bufIn it)) F E)
    (hx : B.xlo ≠ .reflecting ∧ B.xhi ≠ .reflecting) (hy : B.ylo ≠ .reflecting ∧ B.yhi ≠ .reflecting)
    (hz : d3 = true → B.zlo ≠ .reflecting ∧ B.zhi ≠ .reflecting) {q : Nat → ℝ}
    (hu : ∀ i j k v : Nat, i < P.nx.toNat → j < P.ny.toNat → k < depth d3 P → v < 8 →
      m ((cell d3 P i j k).at (bufIn it) v) = q v) {i j k v : Nat}
    (hi : i < P.nx.toNat) (hj : j < P.ny.toNat) (hk : k < depth d3 P) (hv : v < 8) :
    m' ((cell d3 P i j k).at (bufOut it) v) = q v := by
  have hg := h.gw
  have hnx := h.nx
  have hny := h.ny
  obtain ⟨b1, b2⟩ := mcell_box h (by decide) hi hj hk
  have fill : ∀ c, P.box d3 c → ∀ v, v < 8 → m1 (c.at (bufIn it) v) = q v := by
    intro c hb v hv8
    refine f.filled.uniform h (by decide) hx hy hz (h.nv ▸ hv8) ?_ ⟨by omega, by omega⟩
      (fun h0 => by have := h.nz h0; omega) hb
    intro c hb hin
    obtain ⟨i, j, k, hi, hj, hk, rfl⟩ := inner_cell hb hin
    exact hu i j k v hi hj hk hv8
  have same : ∀ c c', P.box d3 c → P.box d3 c' → mfield m1 (bufIn it) c = mfield m1 (bufIn it) c' :=
    fun c c' h1 h2 => mfield_ext fun v hv => by rw [fill c h1 v hv, fill c' h2 v hv]
  have key : ∀ d ∈ dirs d3, effFlux d3 S dt F E v d (cell d3 P i j k) =
      effFlux d3 S dt F E v d ((cell d3 P i j k).up d) := by
    intro d hd
    have e : (cell d3 P i j k).up d = (cell d3 P i j k).move (unitStep d) := by
      cases d <;> simp [Cell.up, Cell.move, Cell.shift, unitStep]
    obtain ⟨a1, a2⟩ := hs (unitStep d) (cell d3 P i j k) (fun c' hw =>
      same _ _ (inner_within h b1 b2 (by cases d3 <;> within))
        (inner_within h b1 b2 (by
          cases d3 <;> cases d <;> simp [dirs] at hd <;>
            simp only [unitStep, Cell.move, Cell.shift] <;> within)))
    rw [e]
    exact effFlux_same hd (a1 d hd) a2
  rw [← mfield_get m' _ _ hv, f.upd _ b1 b2, upd_get _ _ _ _ hv, mfield_get _ _ _ hv, fill _ b1 v hv,
    key .x (by cases d3 <;> simp [dirs]), key .y (by cases d3 <;> simp [dirs])]
  cases d3
  · simp
  · rw [key .z (by simp [dirs])]; simp

/-- Implementation versions 0 and 1 have this form. -/
theorem mhd_form {J : MJunk ℝ} {impl : Int} {xmin : ℝ} (h : BoxSetup d3 8 3 P B)
    (himpl : impl = 0 ∨ impl = 1) (r : Runs (mhd_unsplit d3 S P J xmin impl dt it) m m') :
    ∃ F E m1, StepForm d3 S P B dt it F E m m1 m' ∧
      (ValidMhd d3 S → SameFlow d3 (mfield m1 (bufIn it)) F E) := by
  obtain ⟨m1, x, y, f, -, R⟩ := mhd_whole (S := S) (J := J) (xmin := xmin) (dt := dt) (it := it) h
    himpl m
  obtain rfl := y.unique r
  exact ⟨_, _, m1, ⟨f, R⟩, fun hv t c hU => ⟨fun d hd => mflux_same t hv.defined hd hU,
    fun e he => emf_same t hv.defined he hU⟩⟩

end Verif
