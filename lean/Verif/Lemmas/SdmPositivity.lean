import Verif.Model.SdmPositivity
import Verif.Lemmas.SdmLimiter

/-! Helper lemmas: what the positivity preservation of the spectral difference solver does. -/

namespace Verif.Sdm

open Verif K Function ROps

variable {α : Type} [ROps α]

theorem sol2fluxVector_congr {N : ℕ} {sp fp f g : ℕ → α} (h : ∀ k, k < N → f k = g k) (j : ℕ) :
    sol2fluxVector N sp fp f j = sol2fluxVector N sp fp g j := sumIf_congr fun i hi => by rw [h i hi]

theorem mem_cellLines {d3 : Bool} {N : ℕ} {x : Dir × Pt} :
    x ∈ cellLines d3 N ↔ (d3 = true ∨ x.1 ≠ .z) ∧ IsSolPt d3 N x.2 ∧ x.2.get x.1 = 0 := by
  obtain ⟨d, p⟩ := x
  have key : d ∈ cellDirs d3 ↔ (d3 = true ∨ d ≠ .z) := by
    cases d3 <;> cases d <;> simp [cellDirs]
  simp only [cellLines, List.mem_flatMap, List.mem_map, Prod.mk.injEq]
  constructor
  · rintro ⟨d', hd, p', hp, rfl, rfl⟩
    have hd := (show d' ∈ cellDirs d3 ↔ (d3 = true ∨ d' ≠ .z) from key).1 hd
    exact ⟨hd, (mem_lines hd).1 hp⟩
  · rintro ⟨hd, hp⟩
    exact ⟨d, key.2 hd, p, (mem_lines hd).2 hp, rfl, rfl⟩

theorem cellLines_pt {d3 : Bool} {N : ℕ} {x : Dir × Pt} (h : x ∈ cellLines d3 N) {k : ℕ} (hk : k < N) :
    IsSolPt d3 N (x.2.set x.1 k) := (mem_cellLines.1 h).2.1.set (mem_cellLines.1 h).1 hk

/-! ### What is computed -/

/-- The least density at the flux points. -/
def minVal (M : Scheme α) (big : α) (u : Vals α) (c : Cell) : α :=
  (cellLines M.d3 M.N).foldl (fun acc x => (List.range (M.N + 1)).foldl (fun r j =>
    keepMin r (sol2fluxVector M.N M.sp M.fp (fun k => u c (x.2.set x.1 k) ID) j)) acc) big

/-- Values after the first step. -/
def densVals (S : Settings α) (big : α) (M : Scheme α) (ave : Cell → HState α) (u : Vals α) : Vals α :=
  fun c p iv =>
    let th := theta1 S (ave c).d (minVal M big u c)
    if iv = ID ∧ ltb th (lit 1) = true then pullTo th (ave c).d (u c p iv) else u c p iv

/-- State at a flux point. -/
def fluxStateOf (M : Scheme α) (u : Vals α) (c : Cell) (x : Dir × Pt) (j : ℕ) : HState α :=
  lineState M (fun iv k => u c (x.2.set x.1 k) iv) j

/-- `theta2`. -/
def theta2Val (M : Scheme α) (S : Settings α) (ave : HState α) (u : Vals α) (c : Cell) : α :=
  (cellLines M.d3 M.N).foldl (fun acc x => (List.range (M.N + 1)).foldl (fun th j =>
    shrink M.d3 S.gamma0 ave th (fluxStateOf M u c x j)) acc) (lit 1)

/-- Values after the second step. -/
def blendVals (S : Settings α) (M : Scheme α) (ave : Cell → HState α) (u : Vals α) : Vals α :=
  fun c p iv =>
    let th := theta2Val M S (ave c) u c
    if ltb th (lit 1) = true then pullTo th (Mood.comp (ave c) iv) (u c p iv) else u c p iv

/-- Values after both. -/
def posVals (S : Settings α) (big : α) (M : Scheme α) (ave : Cell → HState α) (u : Vals α) : Vals α :=
  blendVals S M ave (densVals S big M ave u)

/-! ### Kernels -/

theorem loadLines_reads (n nv : ℕ) (addr : ℕ → ℕ → Addr) (m : Addr → α) :
    Reads (loadLines n nv addr) m fun iv k =>
      if iv < nv then (if k < n then m (addr iv k) else lit 0) else lit 0 := by
  induction nv with
  | zero => simp only [Nat.not_lt_zero, if_false]; exact Reads.ret _ _
  | succ nv ih =>
    have := ih.bind (f := fun f => (loadVals n (addr nv)).bind fun x =>
      (.ret fun iv => if iv = nv then x else f iv : K Addr α (ℕ → ℕ → α)))
      ((loadVals_reads n (addr nv) m).bind (Reads.ret _ m))
    have e : (fun iv k => if iv < nv + 1 then (if k < n then m (addr iv k) else lit 0) else (lit 0 : α)) =
        fun iv => if iv = nv then (fun k => if k < n then m (addr nv k) else lit 0) else fun k =>
          if iv < nv then (if k < n then m (addr iv k) else lit 0) else lit 0 := by
      funext iv k
      by_cases h : iv = nv
      · subst h; simp
      · have : (iv < nv + 1) ↔ iv < nv := by omega
        simp [h, this]
    rw [e]; exact this

theorem loadLines_fp {R W C : Addr → Prop} {n nv : ℕ} {addr : ℕ → ℕ → Addr}
    (h : ∀ iv k, iv < nv → k < n → R (addr iv k)) : (loadLines n nv addr : K Addr α _).FP R W C := by
  induction nv with
  | zero => trivial
  | succ nv ih =>
    exact FP.bind (ih fun iv k hi hk => h iv k (by omega) hk) fun f =>
      FP.bind (loadVals_fp fun k hk => h nv k (by omega) hk) fun x => FP.ret

theorem minLine_reads (M : Scheme α) (A : ℕ) (c : Cell) (x : Dir × Pt) (acc : α) (m : Addr → α) :
    Reads (minLine M A c x acc) m ((List.range (M.N + 1)).foldl (fun r j => keepMin r
      (sol2fluxVector M.N M.sp M.fp (fun k => m (M.sol A c (x.2.set x.1 k) ID)) j)) acc) := by
  have e : ∀ j, sol2fluxVector M.N M.sp M.fp
      (fun k => if k < M.N then m (M.sol A c (x.2.set x.1 k) ID) else lit 0) j =
      sol2fluxVector M.N M.sp M.fp (fun k => m (M.sol A c (x.2.set x.1 k) ID)) j :=
    sol2fluxVector_congr fun i hi => if_pos hi
  have := (loadVals_reads M.N (fun k => M.sol A c (x.2.set x.1 k) ID) m).bind
    (f := fun sol => (.ret ((List.range (M.N + 1)).foldl (fun r j =>
      keepMin r (sol2fluxVector M.N M.sp M.fp sol j)) acc) : K Addr α α)) (Reads.ret _ m)
  simp only [e] at this
  exact this

theorem pressLine_reads (M : Scheme α) (S : Settings α) (ave : HState α) (A : ℕ) (c : Cell) (x : Dir × Pt)
    (acc : α) (m : Addr → α) :
    Reads (pressLine M S ave A c x acc) m ((List.range (M.N + 1)).foldl (fun th j =>
      shrink M.d3 S.gamma0 ave th (fluxStateOf M (valsOf M m A) c x j)) acc) := by
  have e : ∀ j, lineState M (fun iv k => if iv < hydroVars M.d3 then
      (if k < M.N then m (M.sol A c (x.2.set x.1 k) iv) else lit 0) else lit 0) j =
      fluxStateOf M (valsOf M m A) c x j := fun j => by
    unfold fluxStateOf lineState
    refine ofComps_congr fun iv hv => sol2fluxVector_congr (fun k hk => ?_) j
    beta_reduce
    rw [if_pos hv, if_pos hk]; rfl
  have := (loadLines_reads M.N (hydroVars M.d3) (fun iv k => M.sol A c (x.2.set x.1 k) iv) m).bind
    (f := fun f => (.ret ((List.range (M.N + 1)).foldl (fun th j =>
      shrink M.d3 S.gamma0 ave th (lineState M f j)) acc) : K Addr α α)) (Reads.ret _ m)
  simp only [e] at this
  exact this

theorem densityStep_fp {M : Scheme α} {A : ℕ} {c : Cell} {th ra : α} {R W C : Addr → Prop}
    (hR : ∀ p, IsSolPt M.d3 M.N p → R (M.sol A c p ID))
    (hW : ∀ p, IsSolPt M.d3 M.N p → W (M.sol A c p ID)) : (densityStep M A c th ra).FP R W C := by
  unfold densityStep
  split_ifs
  · exact forEach_fp fun p hp => FP.bind (FP.load (hR p (mem_cellPts.1 hp))) fun _ =>
      FP.store (hW p (mem_cellPts.1 hp))
  · exact FP.ret

theorem densityStep_exec {M : Scheme α} {A : ℕ} {c : Cell} {th ra : α} {p : Pt} {iv : ℕ}
    (hp : IsSolPt M.d3 M.N p) (m : Addr → α) :
    (densityStep M A c th ra).exec m (M.sol A c p iv) =
      if iv = ID ∧ ltb th (lit 1) = true then pullTo th ra (m (M.sol A c p iv)) else m (M.sol A c p iv) := by
  by_cases ht : ltb th (lit 1) = true
  · by_cases hv : iv = ID
    · subst hv
      rw [if_pos ⟨rfl, ht⟩]
      unfold densityStep
      rw [if_pos ht]
      refine (forEach_exec (R := fun p a => a = M.sol A c p ID) (W := fun p a => a = M.sol A c p ID)
        (nodup_cellPts _ _) (fun _ _ => FP.bind (FP.load rfl) fun _ => FP.store rfl) ?_ m
        (i := p) (mem_cellPts.2 hp) rfl).trans ?_
      rotate_left
      · exact Function.update_self _ _ _
      · rintro p hi p' hj hij a rfl
        have : ¬ M.sol A c p ID = M.sol A c p' ID := fun e =>
          hij (sol_inj (mem_cellPts.1 hi) (mem_cellPts.1 hj) e).2.2.1
        exact ⟨this, this⟩
    · rw [if_neg fun h => hv h.1]
      refine exec_frame (densityStep_fp (R := fun _ => True)
        (W := fun a => ∃ p, IsSolPt M.d3 M.N p ∧ a = M.sol A c p ID) (C := fun _ => False)
        (fun _ _ => trivial) fun p hp => ⟨p, hp, rfl⟩) m ?_ fun e => e
      rintro ⟨p', hp', e⟩
      exact hv (sol_inj hp hp' e).2.2.2
  · rw [if_neg fun h => ht h.2]
    unfold densityStep
    rw [if_neg ht]
    rfl

theorem blendStep_fp {M : Scheme α} {A : ℕ} {c : Cell} {th : α} {ave : HState α} {R W C : Addr → Prop}
    (hR : ∀ p iv, IsSolPt M.d3 M.N p → iv < hydroVars M.d3 → R (M.sol A c p iv))
    (hW : ∀ p iv, IsSolPt M.d3 M.N p → iv < hydroVars M.d3 → W (M.sol A c p iv)) :
    (blendStep M A c th ave).FP R W C := by
  unfold blendStep
  split_ifs
  · refine forEach_fp fun x hx => ?_
    have hx := List.mem_product.1 hx
    exact FP.bind (FP.load (hR _ _ (mem_cellPts.1 hx.1) (List.mem_range.1 hx.2))) fun _ =>
      FP.store (hW _ _ (mem_cellPts.1 hx.1) (List.mem_range.1 hx.2))
  · exact FP.ret

theorem blendStep_exec {M : Scheme α} {A : ℕ} {c : Cell} {th : α} {ave : HState α} {p : Pt} {iv : ℕ}
    (hp : IsSolPt M.d3 M.N p) (hv : iv < hydroVars M.d3) (m : Addr → α) :
    (blendStep M A c th ave).exec m (M.sol A c p iv) =
      if ltb th (lit 1) = true then pullTo th (Mood.comp ave iv) (m (M.sol A c p iv))
      else m (M.sol A c p iv) := by
  by_cases ht : ltb th (lit 1) = true
  · rw [if_pos ht]
    unfold blendStep
    rw [if_pos ht]
    refine (forEach_exec (R := fun x a => a = M.sol A c x.1 x.2)
      (W := fun x a => a = M.sol A c x.1 x.2)
      (nodup_prod (nodup_cellPts _ _) List.nodup_range)
      (fun _ _ => FP.bind (FP.load rfl) fun _ => FP.store rfl) ?_ m
      (i := (p, iv)) (by simp [List.mem_product, mem_cellPts, hp, hv]) rfl).trans ?_
    rotate_left
    · exact Function.update_self _ _ _
    · rintro ⟨p, iv⟩ hi ⟨p', iv'⟩ hj hij a rfl
      simp only [List.mem_product, mem_cellPts, List.mem_range] at hi hj
      have : ¬ M.sol A c p iv = M.sol A c p' iv' := fun e => by
        obtain ⟨-, -, h3, h4⟩ := sol_inj hi.1 hj.1 e
        exact hij (Prod.ext h3 h4)
      exact ⟨this, this⟩
  · rw [if_neg ht]
    unfold blendStep
    rw [if_neg ht]
    rfl

theorem posBody_fp {M : Scheme α} {S : Settings α} {big : α} {A : ℕ} {c : Cell} {R W C : Addr → Prop}
    (hav : ∀ iv, iv < hydroVars M.d3 → R (c.at sAvg iv))
    (hR : ∀ p iv, IsSolPt M.d3 M.N p → iv < hydroVars M.d3 → R (M.sol A c p iv))
    (hW : ∀ p iv, IsSolPt M.d3 M.N p → iv < hydroVars M.d3 → W (M.sol A c p iv)) :
    (posBody M S big A c).FP R W C := by
  have h0 : ID < hydroVars M.d3 := by cases M.d3 <;> decide
  unfold posBody
  refine FP.bind (loadAt_fp hav) fun ave => FP.bind (foldK_fp (fun x hx acc =>
    FP.bind (loadVals_fp fun k hk => hR _ _ (cellLines_pt hx hk) h0) fun _ => FP.ret) _) fun r =>
    FP.bind (densityStep_fp (fun p hp => hR p _ hp h0) fun p hp => hW p _ hp h0) fun _ =>
    FP.bind (foldK_fp (fun x hx acc => FP.bind (loadLines_fp fun iv k hv hk =>
      hR _ _ (cellLines_pt hx hk) hv) fun _ => FP.ret) _) fun t => blendStep_fp hR hW

theorem foldl_congr {ι σ : Type} {L : List ι} {f g : σ → ι → σ} (h : ∀ i ∈ L, ∀ a, f a i = g a i) (a : σ) :
    L.foldl f a = L.foldl g a := by
  induction L generalizing a with
  | nil => rfl
  | cons i L ih =>
    rw [List.foldl_cons, List.foldl_cons, h i (by simp)]
    exact ih (fun j hj => h j (by simp [hj])) _

theorem minVal_congr {M : Scheme α} {big : α} {u u' : Vals α} {c : Cell}
    (h : ∀ p, IsSolPt M.d3 M.N p → u c p ID = u' c p ID) : minVal M big u c = minVal M big u' c :=
  foldl_congr (fun x hx a => foldl_congr (fun j _ r => by
    rw [sol2fluxVector_congr fun k hk => h _ (cellLines_pt hx hk)]) a) big

theorem fluxStateOf_congr {M : Scheme α} {u u' : Vals α} {c : Cell} {x : Dir × Pt}
    (hx : x ∈ cellLines M.d3 M.N)
    (h : ∀ p iv, IsSolPt M.d3 M.N p → iv < hydroVars M.d3 → u c p iv = u' c p iv) (j : ℕ) :
    fluxStateOf M u c x j = fluxStateOf M u' c x j :=
  ofComps_congr fun iv hv => sol2fluxVector_congr (fun k hk => h _ iv (cellLines_pt hx hk) hv) j

theorem theta2Val_congr {M : Scheme α} {S : Settings α} {ave : HState α} {u u' : Vals α} {c : Cell}
    (h : ∀ p iv, IsSolPt M.d3 M.N p → iv < hydroVars M.d3 → u c p iv = u' c p iv) :
    theta2Val M S ave u c = theta2Val M S ave u' c :=
  foldl_congr (fun x hx a => foldl_congr (fun j _ r => by rw [fluxStateOf_congr hx h]) a) _

theorem posBody_exec {M : Scheme α} {S : Settings α} {big : α} {A : ℕ} {c : Cell} {p : Pt} {iv : ℕ}
    (hp : IsSolPt M.d3 M.N p) (hv : iv < hydroVars M.d3) (m : Addr → α) :
    (posBody M S big A c).exec m (M.sol A c p iv) =
      posVals S big M (meanState M.d3 m sAvg) (valsOf M m A) c p iv := by
  unfold posBody
  simp only [K.bind_eq]
  have h1 : Reads (loadAt M.d3 fun iv => c.at sAvg iv) m (meanState M.d3 m sAvg c) := loadAt_reads _ _ m
  have h2 := foldK_reads (L := cellLines M.d3 M.N) (body := minLine M A c) (m := m)
    (fun x _ acc => minLine_reads M A c x acc m) big
  rw [h1.exec_bind, h2.exec_bind, K.exec_bind]
  set ave := meanState M.d3 m sAvg c with have'
  have hmin : (cellLines M.d3 M.N).foldl (fun acc x => (List.range (M.N + 1)).foldl (fun r j =>
      keepMin r (sol2fluxVector M.N M.sp M.fp (fun k => m (M.sol A c (x.2.set x.1 k) ID)) j)) acc) big =
      minVal M big (valsOf M m A) c := rfl
  rw [hmin]
  set m1 := (densityStep M A c (theta1 S ave.d (minVal M big (valsOf M m A) c)) ave.d).exec m with hm1
  have e1 : ∀ p iv, IsSolPt M.d3 M.N p → valsOf M m1 A c p iv =
      densVals S big M (meanState M.d3 m sAvg) (valsOf M m A) c p iv := fun p iv hp => densityStep_exec hp m
  have h3 := foldK_reads (L := cellLines M.d3 M.N) (body := pressLine M S ave A c) (m := m1)
    (fun x _ acc => pressLine_reads M S ave A c x acc m1) (lit 1)
  rw [h3.exec_bind, blendStep_exec hp hv]
  have h4 : (cellLines M.d3 M.N).foldl (fun acc x => (List.range (M.N + 1)).foldl (fun th j =>
      shrink M.d3 S.gamma0 ave th (fluxStateOf M (valsOf M m1 A) c x j)) acc) (lit 1) =
      theta2Val M S ave (densVals S big M (meanState M.d3 m sAvg) (valsOf M m A)) c :=
    theta2Val_congr fun p iv hp _ => e1 p iv hp
  rw [h4, show m1 (M.sol A c p iv) = _ from e1 p iv hp]
  rfl

theorem positivity_yields {M : Scheme α} {S : Settings α} {P : Grid} (h : Ready M P) {ti : Mood.TimeInt}
    {A : ℕ} (hA : solArray ti A) (big : α) (m : Addr → α) :
    ∃ m', (positivity M S P big A).Yields (avgDom M.d3 M.N P ti) m m' ∧
      (∀ c p iv, P.box M.d3 c → IsSolPt M.d3 M.N p → iv < P.nbvar → m' (M.sol A c p iv) =
        posVals S big M (meanState M.d3 m sAvg) (valsOf M m A) c p iv) ∧
      (∀ a, a.arr ≠ A → m' a = m a) := by
  classical
  have hlt := hA.small
  have hne : sAvg ≠ A := by simp only [sAvg]; omega
  have y := cells_yields (M := M) (P := P) (body := posBody M S big A)
    (dom := avgDom M.d3 M.N P ti) (out := fun B => B = A) Addr.cell h.ne m ?_
  · refine ⟨_, y, fun c p iv hc hp hv => ?_, fun a ha => ?_⟩
    · have e : (M.sol A c p iv).cell = c := rfl
      rw [e, if_pos hc, posBody_exec hp (h.nv ▸ hv)]
    · beta_reduce
      by_cases hb : P.box M.d3 a.cell
      · rw [if_pos hb]
        exact exec_frame (posBody_fp (R := fun _ => True) (W := fun b => b.arr = A)
            (C := fun _ => False) (fun _ _ => trivial) (fun _ _ _ _ => trivial) fun _ _ _ _ => rfl) m ha
            fun e => e
      · rw [if_neg hb]
  · intro c hc
    refine posBody_fp ?_ ?_ ?_
    · exact fun iv hv => ⟨.inr ⟨hc, rfl, h.nv.symm ▸ hv⟩, fun e => absurd e hne⟩
    · exact fun p iv hp hv => ⟨.inl (sol_dom hA hc hp (h.nv.symm ▸ hv)), fun _ => rfl⟩
    · exact fun p iv hp hv => ⟨.inl (sol_dom hA hc hp (h.nv.symm ▸ hv)), rfl, rfl⟩

theorem posVals_congr {M : Scheme α} {S : Settings α} {big : α} {ave ave' : Cell → HState α} {u : Vals α}
    {c : Cell} (h : ave c = ave' c) (p : Pt) (iv : ℕ) :
    posVals S big M ave u c p iv = posVals S big M ave' u c p iv := by
  have e : ∀ p iv, densVals S big M ave u c p iv = densVals S big M ave' u c p iv := fun p iv => by
    unfold densVals; rw [h]
  unfold posVals blendVals
  rw [h, e, theta2Val_congr fun p iv _ _ => e p iv]

theorem preserving_yields {M : Scheme α} {S : Settings α} {P : Grid} (h : Ready M P) {ti : Mood.TimeInt}
    {A : ℕ} (hA : solArray ti A) (pi big : α) (m : Addr → α) :
    ∃ m', YieldsAll (avgDom M.d3 M.N P ti) (preserving M S P pi big A) m m' ∧
      (∀ c p iv, P.box M.d3 c → IsSolPt M.d3 M.N p → iv < P.nbvar → m' (M.sol A c p iv) =
        posVals S big M (avgOf M S pi (valsOf M m A)) (valsOf M m A) c p iv) ∧
      (∀ c iv, P.box M.d3 c → iv < P.nbvar → m' (c.at sAvg iv) = avgVal M S pi (valsOf M m A) c iv) ∧
      (∀ a, a.arr ≠ A → a.arr ≠ sAvg → m' a = m a) := by
  have hlt := hA.small
  obtain ⟨m1, y1, e1, f1⟩ := averageU_yields (S := S) h hA pi m
  obtain ⟨m2, y2, e2, f2⟩ := positivity_yields (S := S) (ti := ti) h hA big m1
  have v1 : valsOf M m1 A = valsOf M m A := by
    funext c p iv
    exact f1 _ (show A ≠ sAvg by simp only [sAvg]; omega)
  refine ⟨m2, .cons y1 (.cons y2 (.nil _)), fun c p iv hc hp hv => ?_, fun c iv hc hv => ?_,
    fun a h1 h2 => ?_⟩
  · rw [e2 c p iv hc hp hv, v1]
    have ha : meanState M.d3 m1 sAvg c = avgOf M S pi (valsOf M m A) c :=
      ofComps_congr fun iv hv => e1 c iv hc (h.nv ▸ hv)
    exact posVals_congr ha p iv
  · rw [f2 _ (show sAvg ≠ A by simp only [sAvg]; omega), e1 c iv hc hv]
  · rw [f2 a h1, f1 a h2]

end Verif.Sdm
