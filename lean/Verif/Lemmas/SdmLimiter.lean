import Verif.Model.SdmLimiter
import Verif.Lemmas.SdmWhole
import Verif.Lemmas.HydroWhole

/-! Helper lemmas: what the averaging loops and the limiter of the spectral difference solver do. -/

namespace Verif.Sdm

open Verif K Function ROps

variable {α : Type} [ROps α]

theorem foldK_reads {ι σ : Type} {L : List ι} {body : ι → σ → K Addr α σ} {f : ι → σ → σ} {m : Addr → α}
    (h : ∀ i ∈ L, ∀ a, Reads (body i a) m (f i a)) (acc : σ) :
    Reads (foldK L body acc) m (L.foldl (fun a i => f i a) acc) := by
  induction L generalizing acc with
  | nil => exact Reads.ret _ _
  | cons i L ih =>
    exact (h i (by simp) acc).bind (ih (fun j hj => h j (by simp [hj])) _)

theorem foldK_fp {ι σ : Type} {L : List ι} {body : ι → σ → K Addr α σ} {R W C : Addr → Prop}
    (h : ∀ i ∈ L, ∀ a, (body i a).FP R W C) (acc : σ) : (foldK L body acc).FP R W C := by
  induction L generalizing acc with
  | nil => trivial
  | cons i L ih => exact FP.bind (h i (by simp) acc) fun a => ih (fun j hj => h j (by simp [hj])) a

/-! ### Averages -/

/-- What `Uaverage` gets. -/
def avgVal (M : Scheme α) (S : Settings α) (pi : α) (u : Vals α) (c : Cell) (iv : ℕ) : α :=
  floorAverage S iv
    ((cellPts M.d3 M.N).foldl (fun a p => a + weigh M.d3 M.sp p (u c p iv)) (lit 0) *
      quadScale M.d3 pi M.N)

/-- What the gradient array gets. -/
def gradAvg (M : Scheme α) (pi : α) (d : Dir) (u : Vals α) (c : Cell) (iv : ℕ) : α :=
  (gradLines M.d3 M.N d).foldl (fun a p => (List.range M.N).foldl
    (fun s k => s + weigh M.d3 M.sp (p.set d k) (gradVal M.N M.sp (fun i => u c (p.set d i) iv) k)) a)
      (lit 0) * quadScale M.d3 pi M.N

theorem solArray.small {ti : Mood.TimeInt} {A : ℕ} (h : solArray ti A) : A < 10 := by
  rcases h with h | h | ⟨i, h1, h2, h⟩ <;> subst h <;> simp only [sU, sDiv, sRK] <;> try omega
  have : rkArrays ti ≤ 4 := by cases ti <;> decide
  omega

theorem sol_lim {M : Scheme α} {P : Grid} {ti : Mood.TimeInt} {A : ℕ} {c : Cell} {p : Pt} {iv : ℕ}
    (hA : solArray ti A) (hc : P.box M.d3 c) (hp : IsSolPt M.d3 M.N p) (hv : iv < P.nbvar) :
    limDom M.d3 M.N P ti (M.sol A c p iv) := .inl (sol_dom hA hc hp hv)

theorem mean_lim {d3 : Bool} {N : ℕ} {P : Grid} {ti : Mood.TimeInt} {A : ℕ} {c : Cell} {iv : ℕ}
    (hA : meanArray d3 A) (hc : P.box d3 c) (hv : iv < P.nbvar) :
    limDom d3 N P ti (c.at A iv) := .inr ⟨hc, hA, hv⟩

theorem avg_lim {d3 : Bool} {N : ℕ} {P : Grid} {ti : Mood.TimeInt} {a : Addr}
    (h : avgDom d3 N P ti a) : limDom d3 N P ti a := h.imp id fun h => ⟨h.1, .inl h.2.1, h.2.2⟩

theorem at_inj {A A' iv iv' : ℕ} {c c' : Cell} (h : c.at A iv = c'.at A' iv') :
    A = A' ∧ c = c' ∧ iv = iv' := by
  simp only [Cell.at, Addr.mk.injEq] at h
  exact ⟨h.1, Cell.ext h.2.1 h.2.2.1 h.2.2.2.1, h.2.2.2.2⟩

/-- A loop that puts one value per cell and variable into array `out`, computed from the points of the cell. -/
theorem mean_yields {M : Scheme α} {P : Grid} (h : Ready M P) {ti : Mood.TimeInt} {A out : ℕ}
    (hA : solArray ti A) (hout : 10 ≤ out) {dom : Addr → Prop} (m : Addr → α)
    (hd1 : ∀ a, sdmDom M.d3 M.N P ti a → dom a)
    (hd2 : ∀ c iv, P.box M.d3 c → iv < P.nbvar → dom (c.at out iv))
    {get : Cell → ℕ → K Addr α α} {val : Cell → ℕ → α}
    (hg : ∀ c iv, P.box M.d3 c → iv < P.nbvar → Reads (get c iv) m (val c iv))
    (hf : ∀ c iv, P.box M.d3 c → iv < P.nbvar →
      (get c iv).FP (fun a => ∃ p, IsSolPt M.d3 M.N p ∧ a = M.sol A c p iv) (fun _ => False)
        fun _ => False) :
    ∃ m', (M.cells P fun c => forEach (List.range P.nbvar) fun iv =>
        (get c iv).bind fun x => K.store (c.at out iv) x).Yields dom m m' ∧
      (∀ c iv, P.box M.d3 c → iv < P.nbvar → m' (c.at out iv) = val c iv) ∧
      (∀ a, a.arr ≠ out → m' a = m a) := by
  have hne : A ≠ out := by have := hA.small; omega
  refine Exists.elim (blocks_yields (M := M) (P := P) (L := List.range P.nbvar)
    (blk := fun c iv => (get c iv).bind fun x => K.store (c.at out iv) x)
    (dom := dom) (out := out)
    (R := fun c iv a => ∃ p, IsSolPt M.d3 M.N p ∧ a = M.sol A c p iv)
    (W := fun c iv a => a = c.at out iv) h.ne List.nodup_range m
    (fun c i hc hi => FP.bind ((hf c i hc (List.mem_range.1 hi)).mono (fun _ h => h)
      (fun _ h => h.elim) fun _ h => h) fun _ => FP.store rfl) ?_ ?_ ?_) ?_
  · rintro c iv a hc hi ⟨p, hp, rfl⟩
    exact ⟨hd1 _ (sol_dom hA hc hp (List.mem_range.1 hi)), fun e => absurd e hne⟩
  · rintro c iv a hc hi rfl
    exact ⟨hd2 _ _ hc (List.mem_range.1 hi), rfl, rfl⟩
  · rintro c - iv hi iv' hj hij a rfl
    refine ⟨?_, fun e => hij (at_inj e).2.2⟩
    rintro ⟨p, -, e⟩
    exact hne (congrArg Addr.arr e).symm
  · rintro m' ⟨y, h1, h2⟩
    refine ⟨m', y, fun c iv hc hv => ?_, fun a ha => ?_⟩
    · rw [h1 c iv _ hc (List.mem_range.2 hv) rfl, (hg c iv hc hv).exec_bind]
      exact Function.update_self _ _ _
    · exact h2 a fun c i _ _ e => ha (by rw [e]; rfl)

theorem averageU_yields {M : Scheme α} {S : Settings α} {P : Grid} (h : Ready M P) {ti : Mood.TimeInt}
    {A : ℕ} (hA : solArray ti A) (pi : α) (m : Addr → α) :
    ∃ m', (averageU M S P pi A).Yields (avgDom M.d3 M.N P ti) m m' ∧
      (∀ c iv, P.box M.d3 c → iv < P.nbvar →
        m' (c.at sAvg iv) = avgVal M S pi (valsOf M m A) c iv) ∧
      (∀ a, a.arr ≠ sAvg → m' a = m a) := by
  have key := mean_yields (M := M) (P := P) h (ti := ti) hA (out := sAvg) (by decide)
    (dom := avgDom M.d3 M.N P ti) m (fun _ h => .inl h) (fun c iv hc hv => .inr ⟨hc, rfl, hv⟩)
    (get := fun c iv => (foldK (cellPts M.d3 M.N) (fun p acc =>
      (K.load (M.sol A c p iv)).bind fun u => (.ret (acc + weigh M.d3 M.sp p u) : K Addr α α))
        (lit 0)).bind fun tmp =>
          (.ret (floorAverage S iv (tmp * quadScale M.d3 pi M.N)) : K Addr α α))
    (val := fun c iv => avgVal M S pi (valsOf M m A) c iv) ?_ ?_
  · simp only [K.bind_assoc] at key
    exact key
  · intro c iv _ _
    exact (foldK_reads (f := fun p acc => acc + weigh M.d3 M.sp p (m (M.sol A c p iv)))
      (fun p _ acc => (Reads.load _ m).bind (Reads.ret _ m)) (lit 0)).bind (Reads.ret _ m)
  · intro c iv hc hv
    refine FP.bind (foldK_fp (fun p hp acc => FP.bind (FP.load ⟨p, mem_cellPts.1 hp, rfl⟩) fun _ =>
      FP.ret) _) fun _ => FP.ret

theorem gradVal_congr {N : ℕ} {sp : ℕ → α} {f g : ℕ → α} (h : ∀ i, i < N → f i = g i) (k : ℕ) :
    gradVal N sp f k = gradVal N sp g k := sumIf_congr fun i hi => by rw [h i hi]

theorem mem_gradLines {d3 : Bool} {N : ℕ} {d : Dir} (hd : d3 = true ∨ d ≠ .z) {p : Pt}
    (h : p ∈ gradLines d3 N d) : IsSolPt d3 N p := by
  cases d with
  | x => exact ((mem_lines hd).1 h).1
  | y => exact ((mem_lines hd).1 h).1
  | z =>
    obtain rfl : d3 = true := by simpa using hd
    simp only [gradLines, List.mem_flatMap, List.mem_map, List.mem_range] at h
    obtain ⟨x, hx, y, hy, rfl⟩ := h
    exact ⟨hx, hy, by simp only [if_true]; omega⟩

/-- One line of `Average_Gradient_Functor`. -/
def gradLine (M : Scheme α) (A : ℕ) (d : Dir) (c : Cell) (iv : ℕ) (p : Pt) (acc : α) : K Addr α α :=
  (loadVals M.N fun k => M.sol A c (p.set d k) iv).bind fun sol =>
    .ret ((List.range M.N).foldl
      (fun s k => s + weigh M.d3 M.sp (p.set d k) (gradVal M.N M.sp sol k)) acc)

theorem gradLine_reads (M : Scheme α) (A : ℕ) (d : Dir) (c : Cell) (iv : ℕ) (p : Pt) (acc : α)
    (m : Addr → α) : Reads (gradLine M A d c iv p acc) m ((List.range M.N).foldl (fun s k => s +
      weigh M.d3 M.sp (p.set d k) (gradVal M.N M.sp (fun i => m (M.sol A c (p.set d i) iv)) k)) acc) := by
  have e : ∀ k, gradVal M.N M.sp (fun k => if k < M.N then m (M.sol A c (p.set d k) iv) else lit 0) k =
      gradVal M.N M.sp (fun i => m (M.sol A c (p.set d i) iv)) k :=
    gradVal_congr fun i hi => if_pos hi
  have := (loadVals_reads M.N (fun k => M.sol A c (p.set d k) iv) m).bind
    (f := fun sol => (.ret ((List.range M.N).foldl
        (fun s k => s + weigh M.d3 M.sp (p.set d k) (gradVal M.N M.sp sol k)) acc) : K Addr α α))
    (Reads.ret _ m)
  simp only [e] at this
  exact this

theorem averageGrad_yields {M : Scheme α} {P : Grid} (h : Ready M P) {ti : Mood.TimeInt}
    {A : ℕ} (hA : solArray ti A) (pi : α) {d : Dir} (hd : M.d3 = true ∨ d ≠ .z) (m : Addr → α) :
    ∃ m', (averageGrad M P pi A d).Yields (limDom M.d3 M.N P ti) m m' ∧
      (∀ c iv, P.box M.d3 c → iv < P.nbvar →
        m' (c.at (sGrad d) iv) = gradAvg M pi d (valsOf M m A) c iv) ∧
      (∀ a, a.arr ≠ sGrad d → m' a = m a) := by
  have ho : meanArray M.d3 (sGrad d) := by
    cases d
    · exact .inr (.inl rfl)
    · exact .inr (.inr (.inl rfl))
    · exact .inr (.inr (.inr ⟨by simpa using hd, rfl⟩))
  have key := mean_yields (M := M) (P := P) h (ti := ti) hA (out := sGrad d) (by cases d <;> decide)
    (dom := limDom M.d3 M.N P ti) m (fun _ h => .inl h) (fun c iv hc hv => mean_lim ho hc hv)
    (get := fun c iv => (foldK (gradLines M.d3 M.N d) (gradLine M A d c iv) (lit 0)).bind fun tmp =>
      (.ret (tmp * quadScale M.d3 pi M.N) : K Addr α α))
    (val := fun c iv => gradAvg M pi d (valsOf M m A) c iv) ?_ ?_
  · simp only [K.bind_assoc] at key
    exact key
  · intro c iv _ _
    have h1 := foldK_reads (L := gradLines M.d3 M.N d) (body := gradLine M A d c iv) (m := m)
      (fun p _ acc => gradLine_reads M A d c iv p acc m) (lit 0)
    exact h1.bind (f := fun tmp => (.ret (tmp * quadScale M.d3 pi M.N) : K Addr α α)) (Reads.ret _ m)
  · intro c iv hc hv
    exact FP.bind (foldK_fp (fun p hp acc => FP.bind (loadVals_fp fun k hk =>
      ⟨p.set d k, (mem_gradLines hd hp).set hd hk, rfl⟩) fun _ => FP.ret) _) fun _ => FP.ret

/-! ### Limiter -/

/-- Is the limiter active in the cell, given averages and gradients? -/
def limiterActs (M : Scheme α) (S : Settings α) (P : Grid) (mdx2 : α) (avg : Cell → HState α)
    (grad : Dir → Cell → HState α) (c : Cell) : Bool :=
  limiterTest M S P mdx2 (avg c) (grad .x c) (avg (c.down .x)) (avg (c.up .x)) (grad .y c)
    (avg (c.down .y)) (avg (c.up .y)) (grad .z c) (avg (c.down .z)) (avg (c.up .z))

/-- Limited slopes of the conservative variables. -/
def cellSlope (M : Scheme α) (S : Settings α) (mdx2 : α) (avg : Cell → HState α)
    (grad : Dir → Cell → HState α) (d : Dir) (c : Cell) : HState α :=
  consSlope M.d3 S mdx2 d (avg c) (grad d c) (avg (c.down d)) (avg (c.up d))

/-- The values after limiting. -/
def limitVals (M : Scheme α) (S : Settings α) (P : Grid) (mdx2 : α) (avg : Cell → HState α)
    (grad : Dir → Cell → HState α) (u : Vals α) : Vals α := fun c p iv =>
  if offBorder M.d3 P c && limiterActs M S P mdx2 avg grad c then
    linearValue M.d3 M.sp p (Mood.comp (avg c) iv) (Mood.comp (cellSlope M S mdx2 avg grad .x c) iv)
      (Mood.comp (cellSlope M S mdx2 avg grad .y c) iv) (Mood.comp (cellSlope M S mdx2 avg grad .z c) iv)
  else u c p iv

theorem offBorder_box {d3 : Bool} {P : Grid} {c : Cell} (hc : P.box d3 c) (h : offBorder d3 P c = true)
    {d : Dir} (hd : d3 = true ∨ d ≠ .z) : P.box d3 (c.down d) ∧ P.box d3 (c.up d) := by
  obtain ⟨h1, h2, h3, h4, h5⟩ := hc
  simp only [offBorder, Bool.not_eq_true', Bool.or_eq_false_iff, beq_eq_false_iff_ne,
    Bool.and_eq_false_iff] at h
  obtain ⟨⟨⟨⟨a1, a2⟩, a3⟩, a4⟩, a5⟩ := h
  constructor <;> cases d <;> cases d3 <;> simp [Cell.up, Cell.down, Grid.box] at * <;> omega

theorem offBorder_inner {d3 : Bool} {P : Grid} {c : Cell} (hg : 1 ≤ P.ghostWidth) (hc : P.inner d3 c) :
    offBorder d3 P c = true := by
  rw [inner_iff] at hc
  have e1 := P.isize_eq
  have e2 := P.jsize_eq
  have e3 := P.ksize_eq
  simp only [offBorder, Bool.not_eq_true', Bool.or_eq_false_iff, beq_eq_false_iff_ne,
    Bool.and_eq_false_iff, e1, e2, e3]
  obtain ⟨h1, h2, h3, h4, h5⟩ := hc
  refine ⟨⟨⟨⟨by omega, by omega⟩, by omega⟩, by omega⟩, ?_⟩
  cases d3
  · exact .inl rfl
  · have := h1 rfl
    exact .inr ⟨by omega, by omega⟩

/-- State of averages in memory. -/
def meanState (d3 : Bool) (m : Addr → α) (A : ℕ) (c : Cell) : HState α := stateAt d3 m fun iv => c.at A iv

theorem putLine_fp {M : Scheme α} {P : Grid} {A : ℕ} {c : Cell} {ave sx sy sz : HState α}
    {R W C : Addr → Prop} (h : ∀ p iv, IsSolPt M.d3 M.N p → iv < P.nbvar → W (M.sol A c p iv)) :
    (putLine M P A c ave sx sy sz).FP R W C :=
  forEach_fp fun x hx => by
    have hx := List.mem_product.1 hx
    exact FP.store (h _ _ (mem_cellPts.1 hx.2) (List.mem_range.1 hx.1))

theorem putLine_exec {M : Scheme α} {P : Grid} {A : ℕ} {c : Cell} {ave sx sy sz : HState α} {p : Pt}
    {iv : ℕ} (hp : IsSolPt M.d3 M.N p) (hv : iv < P.nbvar) (m : Addr → α) :
    (putLine M P A c ave sx sy sz).exec m (M.sol A c p iv) = linearValue M.d3 M.sp p (Mood.comp ave iv)
      (Mood.comp sx iv) (Mood.comp sy iv) (Mood.comp sz iv) := by
  unfold putLine
  rw [forEach_exec (R := fun _ _ => False) (W := fun x a => a = M.sol A c x.2 x.1)
    (nodup_prod List.nodup_range (nodup_cellPts _ _)) (fun _ _ => FP.store rfl) ?_ m
    (i := (iv, p)) (by simp [List.mem_product, mem_cellPts, hp, hv]) rfl]
  · exact Function.update_self _ _ _
  · rintro ⟨iv, p⟩ hi ⟨iv', p'⟩ hj hij a rfl
    simp only [List.mem_product, mem_cellPts, List.mem_range] at hi hj
    refine ⟨fun h => h, fun e => hij ?_⟩
    obtain ⟨-, -, h3, h4⟩ := sol_inj hi.2 hj.2 e
    exact Prod.ext h4 h3

theorem limitBody_fp {M : Scheme α} {S : Settings α} {P : Grid} {mdx2 : α} {A : ℕ} {c : Cell}
    {R W C : Addr → Prop} (hnv : P.nbvar = hydroVars M.d3)
    (hR : ∀ B c' iv, meanArray M.d3 B → (c' = c ∨ ∃ d, (M.d3 = true ∨ d ≠ .z) ∧ (c' = c.down d ∨ c' = c.up d)) →
      iv < P.nbvar → R (c'.at B iv))
    (hW : ∀ p iv, IsSolPt M.d3 M.N p → iv < P.nbvar → W (M.sol A c p iv)) :
    (limitBody M S P mdx2 A c).FP R W C := by
  have hx : M.d3 = true ∨ Dir.x ≠ .z := .inr (by decide)
  have hy : M.d3 = true ∨ Dir.y ≠ .z := .inr (by decide)
  have ld : ∀ B c', meanArray M.d3 B →
      (c' = c ∨ ∃ d, (M.d3 = true ∨ d ≠ .z) ∧ (c' = c.down d ∨ c' = c.up d)) →
      (loadAt M.d3 fun iv => c'.at B iv : K Addr α _).FP R W C :=
    fun B c' hB hc => loadAt_fp fun iv hv => hR B c' iv hB hc (hnv ▸ hv)
  unfold limitBody
  refine FP.bind (ld _ _ (.inl rfl) (.inl rfl)) fun ave =>
    FP.bind (ld _ _ (.inr (.inl rfl)) (.inl rfl)) fun gx =>
    FP.bind (ld _ _ (.inl rfl) (.inr ⟨.x, hx, .inl rfl⟩)) fun xl =>
    FP.bind (ld _ _ (.inl rfl) (.inr ⟨.x, hx, .inr rfl⟩)) fun xr =>
    FP.bind (ld _ _ (.inr (.inr (.inl rfl))) (.inl rfl)) fun gy =>
    FP.bind (ld _ _ (.inl rfl) (.inr ⟨.y, hy, .inl rfl⟩)) fun yl =>
    FP.bind (ld _ _ (.inl rfl) (.inr ⟨.y, hy, .inr rfl⟩)) fun yr =>
    FP.bind ?_ fun z => ?_
  · unfold zLoads
    split_ifs with h3
    · exact FP.bind (ld _ _ (.inr (.inr (.inr ⟨h3, rfl⟩))) (.inl rfl)) fun gz =>
        FP.bind (ld _ _ (.inl rfl) (.inr ⟨.z, .inl h3, .inl rfl⟩)) fun zl =>
        FP.bind (ld _ _ (.inl rfl) (.inr ⟨.z, .inl h3, .inr rfl⟩)) fun zr => FP.ret
    · exact FP.ret
  · show K.FP _ _ _ (if _ then _ else _)
    split_ifs
    · exact putLine_fp hW
    · exact FP.ret

theorem limitBody_exec {M : Scheme α} {S : Settings α} {P : Grid} {mdx2 : α} {A : ℕ} {c : Cell} {p : Pt}
    {iv : ℕ} (hp : IsSolPt M.d3 M.N p) (hv : iv < P.nbvar) (m : Addr → α) :
    (limitBody M S P mdx2 A c).exec m (M.sol A c p iv) =
      if limiterActs M S P mdx2 (meanState M.d3 m sAvg) (fun d => meanState M.d3 m (sGrad d)) c then
        linearValue M.d3 M.sp p (Mood.comp (meanState M.d3 m sAvg c) iv)
          (Mood.comp (cellSlope M S mdx2 (meanState M.d3 m sAvg)
            (fun d => meanState M.d3 m (sGrad d)) .x c) iv)
          (Mood.comp (cellSlope M S mdx2 (meanState M.d3 m sAvg)
            (fun d => meanState M.d3 m (sGrad d)) .y c) iv)
          (Mood.comp (cellSlope M S mdx2 (meanState M.d3 m sAvg)
            (fun d => meanState M.d3 m (sGrad d)) .z c) iv)
      else m (M.sol A c p iv) := by
  have rd : ∀ B c', Reads (loadAt M.d3 fun iv => c'.at B iv) m (meanState M.d3 m B c') :=
    fun B c' => loadAt_reads _ _ m
  unfold limitBody
  simp only [K.bind_eq]
  rw [(rd _ _).exec_bind, (rd _ _).exec_bind, (rd _ _).exec_bind, (rd _ _).exec_bind, (rd _ _).exec_bind,
    (rd _ _).exec_bind, (rd _ _).exec_bind]
  unfold limiterActs
  by_cases h3 : M.d3 = true
  · have hz : Reads (zLoads M (meanState M.d3 m sAvg c) c) m (meanState M.d3 m (sGrad .z) c,
        meanState M.d3 m sAvg (c.down .z), meanState M.d3 m sAvg (c.up .z)) := by
      unfold zLoads
      rw [if_pos h3]
      exact (rd _ _).bind ((rd _ _).bind ((rd _ _).bind (Reads.ret _ _)))
    rw [hz.exec_bind]
    split_ifs
    · rw [putLine_exec hp hv]; rfl
    · rfl
  · have hz : Reads (zLoads M (meanState M.d3 m sAvg c) c) m (meanState M.d3 m sAvg c,
        meanState M.d3 m sAvg c, meanState M.d3 m sAvg c) := by
      unfold zLoads
      rw [if_neg h3]
      exact Reads.ret _ _
    have h3 : M.d3 = false := by simpa using h3
    have et : ∀ a b c' x y z : HState α, limiterTest M S P mdx2 (meanState M.d3 m sAvg c)
        (meanState M.d3 m (sGrad .x) c) (meanState M.d3 m sAvg (c.down .x))
        (meanState M.d3 m sAvg (c.up .x)) (meanState M.d3 m (sGrad .y) c)
        (meanState M.d3 m sAvg (c.down .y)) (meanState M.d3 m sAvg (c.up .y)) a b c' =
        limiterTest M S P mdx2 (meanState M.d3 m sAvg c)
        (meanState M.d3 m (sGrad .x) c) (meanState M.d3 m sAvg (c.down .x))
        (meanState M.d3 m sAvg (c.up .x)) (meanState M.d3 m (sGrad .y) c)
        (meanState M.d3 m sAvg (c.down .y)) (meanState M.d3 m sAvg (c.up .y)) x y z := by
      intro a b c' x y z
      unfold limiterTest
      simp only [h3, Bool.false_eq_true, if_false]
    rw [hz.exec_bind, et _ _ _ (meanState M.d3 m (sGrad .z) c) (meanState M.d3 m sAvg (c.down .z))
      (meanState M.d3 m sAvg (c.up .z))]
    split_ifs
    · rw [putLine_exec hp hv]
      unfold linearValue
      simp only [h3, Bool.false_eq_true, if_false]
      unfold cellSlope
      rw [h3]
    · rfl

theorem limiter_yields {M : Scheme α} {S : Settings α} {P : Grid} (h : Ready M P) {ti : Mood.TimeInt}
    {A : ℕ} (hA : solArray ti A) (mdx2 : α) (m : Addr → α) :
    ∃ m', (limiter M S P mdx2 A).Yields (limDom M.d3 M.N P ti) m m' ∧
      (∀ c p iv, P.box M.d3 c → IsSolPt M.d3 M.N p → iv < P.nbvar → m' (M.sol A c p iv) =
        limitVals M S P mdx2 (meanState M.d3 m sAvg) (fun d => meanState M.d3 m (sGrad d))
          (valsOf M m A) c p iv) ∧
      (∀ a, a.arr ≠ A → m' a = m a) := by
  classical
  have hlt := hA.small
  have hne : ∀ B, meanArray M.d3 B → B ≠ A := by
    rintro B (rfl | rfl | rfl | ⟨-, rfl⟩) e <;> simp only [sAvg, sGrad] at e <;> omega
  have y := cells_yields (M := M) (P := P)
    (body := fun c => if offBorder M.d3 P c then limitBody M S P mdx2 A c else .ret ())
    (dom := limDom M.d3 M.N P ti) (out := fun B => B = A) Addr.cell h.ne m ?_
  · refine ⟨_, y, fun c p iv hc hp hv => ?_, fun a ha => ?_⟩
    · have e : (M.sol A c p iv).cell = c := rfl
      rw [e, if_pos hc]
      unfold limitVals
      by_cases ho : offBorder M.d3 P c = true
      · simp only [ho, if_true, Bool.true_and]
        rw [limitBody_exec hp hv]
        rfl
      · simp only [ho, Bool.false_eq_true, if_false, Bool.false_and]
        rfl
    · beta_reduce
      by_cases hb : P.box M.d3 a.cell
      · rw [if_pos hb]
        by_cases ho : offBorder M.d3 P a.cell = true
        · rw [if_pos ho]
          refine exec_frame (limitBody_fp (R := fun _ => True) (W := fun b => b.arr = A)
            (C := fun _ => False) h.nv (fun _ _ _ _ _ _ => trivial) fun _ _ _ _ => rfl) m ha fun e => e
        · rw [if_neg ho]
          rfl
      · rw [if_neg hb]
  · intro c hc
    show K.FP _ _ _ (if _ then _ else _)
    split_ifs with ho
    · refine limitBody_fp h.nv ?_ ?_
      · rintro B c' iv hB hc' hv
        refine ⟨mean_lim hB ?_ hv, fun e => absurd e (hne B hB)⟩
        rcases hc' with rfl | ⟨d, hd, rfl | rfl⟩
        · exact hc
        · exact (offBorder_box hc ho hd).1
        · exact (offBorder_box hc ho hd).2
      · exact fun p iv hp hv => ⟨sol_lim hA hc hp hv, rfl, rfl⟩
    · exact FP.ret

theorem limitVals_congr {M : Scheme α} {S : Settings α} {P : Grid} {mdx2 : α} {avg avg' : Cell → HState α}
    {grad grad' : Dir → Cell → HState α} {u : Vals α} (h : ∀ c, P.box M.d3 c → avg c = avg' c)
    (hg : ∀ d c, M.d3 = true ∨ d ≠ .z → P.box M.d3 c → grad d c = grad' d c) {c : Cell}
    (hc : P.box M.d3 c) (p : Pt) (iv : ℕ) :
    limitVals M S P mdx2 avg grad u c p iv = limitVals M S P mdx2 avg' grad' u c p iv := by
  unfold limitVals
  by_cases ho : offBorder M.d3 P c = true
  · have hx : M.d3 = true ∨ Dir.x ≠ .z := .inr (by decide)
    have hy : M.d3 = true ∨ Dir.y ≠ .z := .inr (by decide)
    have bx := offBorder_box hc ho hx
    have by' := offBorder_box hc ho hy
    by_cases h3 : M.d3 = true
    · have bz := offBorder_box hc ho (d := .z) (.inl h3)
      unfold limiterActs cellSlope
      rw [h c hc, h _ bx.1, h _ bx.2, h _ by'.1, h _ by'.2, h _ bz.1, h _ bz.2, hg .x c hx hc,
        hg .y c hy hc, hg .z c (.inl h3) hc]
    · unfold limiterActs cellSlope
      rw [h c hc, h _ bx.1, h _ bx.2, h _ by'.1, h _ by'.2, hg .x c hx hc, hg .y c hy hc]
      have h3 : M.d3 = false := by simpa using h3
      unfold limiterTest linearValue
      simp only [h3, Bool.false_eq_true, if_false]
  · simp only [ho, Bool.false_eq_true, Bool.false_and, if_false]

/-- Averages of the conservative variables as a state. -/
def avgOf (M : Scheme α) (S : Settings α) (pi : α) (u : Vals α) (c : Cell) : HState α :=
  Mood.ofComps M.d3 (avgVal M S pi u c)

/-- Averages of the derivatives as a state. -/
def gradOf (M : Scheme α) (pi : α) (u : Vals α) (d : Dir) (c : Cell) : HState α :=
  Mood.ofComps M.d3 (gradAvg M pi d u c)

theorem ofComps_congr {d3 : Bool} {f g : ℕ → α} (h : ∀ iv, iv < hydroVars d3 → f iv = g iv) :
    Mood.ofComps d3 f = Mood.ofComps d3 g := by
  unfold Mood.ofComps
  cases d3
  · rw [h ID (by decide), h IP (by decide), h IU (by decide), h IV (by decide)]; rfl
  · rw [h ID (by decide), h IP (by decide), h IU (by decide), h IV (by decide), h IW (by decide)]

theorem limiting_yields {M : Scheme α} {S : Settings α} {P : Grid} (h : Ready M P) {ti : Mood.TimeInt}
    {A : ℕ} (hA : solArray ti A) (pi mdx2 : α) (m : Addr → α) :
    ∃ m', YieldsAll (limDom M.d3 M.N P ti) (limiting M S P pi mdx2 A) m m' ∧
      (∀ c p iv, P.box M.d3 c → IsSolPt M.d3 M.N p → iv < P.nbvar → m' (M.sol A c p iv) =
        limitVals M S P mdx2 (avgOf M S pi (valsOf M m A)) (gradOf M pi (valsOf M m A))
          (valsOf M m A) c p iv) ∧
      (∀ c iv, P.box M.d3 c → iv < P.nbvar →
        m' (c.at sAvg iv) = avgVal M S pi (valsOf M m A) c iv) ∧
      (∀ d c iv, M.d3 = true ∨ d ≠ .z → P.box M.d3 c → iv < P.nbvar →
        m' (c.at (sGrad d) iv) = gradAvg M pi d (valsOf M m A) c iv) ∧
      (∀ a, a.arr ≠ A → ¬ meanArray M.d3 a.arr → m' a = m a) := by
  have hlt := hA.small
  have hx : M.d3 = true ∨ Dir.x ≠ .z := .inr (by decide)
  have hy : M.d3 = true ∨ Dir.y ≠ .z := .inr (by decide)
  obtain ⟨m1, y1, e1, f1⟩ := averageU_yields (S := S) h hA pi m
  replace y1 := y1.mono fun a ha => avg_lim ha
  obtain ⟨m2, y2, e2, f2⟩ := averageGrad_yields h hA pi hx m1
  obtain ⟨m3, y3, e3, f3⟩ := averageGrad_yields h hA pi hy m2
  have v1 : valsOf M m1 A = valsOf M m A := by
    funext c p iv
    exact f1 _ (show A ≠ sAvg by simp only [sAvg]; omega)
  have v2 : valsOf M m2 A = valsOf M m A := by
    rw [← v1]; funext c p iv
    exact f2 _ (show A ≠ sGrad .x by simp only [sGrad]; omega)
  have v3 : valsOf M m3 A = valsOf M m A := by
    rw [← v2]; funext c p iv
    exact f3 _ (show A ≠ sGrad .y by simp only [sGrad]; omega)
  have key : ∃ m4, YieldsAll (limDom M.d3 M.N P ti)
      (if M.d3 then [averageGrad M P pi A .z] else []) m3 m4 ∧
      (M.d3 = true → ∀ c iv, P.box M.d3 c → iv < P.nbvar →
        m4 (c.at (sGrad .z) iv) = gradAvg M pi .z (valsOf M m A) c iv) ∧
      (∀ a, (M.d3 = true → a.arr ≠ sGrad .z) → m4 a = m3 a) := by
    by_cases h3 : M.d3 = true
    · obtain ⟨m4, y4, e4, f4⟩ := averageGrad_yields h (ti := ti) hA pi (d := .z) (.inl h3) m3
      rw [v3] at e4
      rw [if_pos h3]
      exact ⟨m4, .cons y4 (.nil _), fun _ => e4, fun a ha => f4 a (ha h3)⟩
    · rw [if_neg h3]
      exact ⟨m3, .nil _, fun e => absurd e h3, fun a _ => rfl⟩
  obtain ⟨m4, y4, e4, f4⟩ := key
  have v4 : valsOf M m4 A = valsOf M m A := by
    rw [← v3]; funext c p iv
    exact f4 _ fun _ => (show A ≠ sGrad .z by simp only [sGrad]; omega)
  obtain ⟨m5, y5, e5, f5⟩ := limiter_yields (S := S) (ti := ti) h hA mdx2 m4
  rw [v1] at e2
  rw [v2] at e3
  have a4 : ∀ c iv, P.box M.d3 c → iv < P.nbvar →
      m4 (c.at sAvg iv) = avgVal M S pi (valsOf M m A) c iv := fun c iv hc hv => by
    rw [f4 _ fun _ => (by show sAvg ≠ sGrad .z; decide), f3 _ (by show sAvg ≠ sGrad .y; decide),
      f2 _ (by show sAvg ≠ sGrad .x; decide), e1 c iv hc hv]
  have g4 : ∀ d c iv, M.d3 = true ∨ d ≠ .z → P.box M.d3 c → iv < P.nbvar →
      m4 (c.at (sGrad d) iv) = gradAvg M pi d (valsOf M m A) c iv := by
    intro d c iv hd hc hv
    cases d with
    | x => rw [f4 _ fun _ => (by show sGrad .x ≠ sGrad .z; decide),
        f3 _ (by show sGrad .x ≠ sGrad .y; decide), e2 c iv hc hv]
    | y => rw [f4 _ fun _ => (by show sGrad .y ≠ sGrad .z; decide), e3 c iv hc hv]
    | z => exact e4 (by simpa using hd) c iv hc hv
  have hne : ∀ B, meanArray M.d3 B → B ≠ A := by
    rintro B (rfl | rfl | rfl | ⟨-, rfl⟩) e <;> simp only [sAvg, sGrad] at e <;> omega
  refine ⟨m5, ?_, fun c p iv hc hp hv => ?_, fun c iv hc hv => ?_, fun d c iv hd hc hv => ?_,
    fun a ha hm => ?_⟩
  · exact ((YieldsAll.cons y1 (.cons y2 (.cons y3 (.nil _)))).append y4).append (.cons y5 (.nil _))
  · rw [e5 c p iv hc hp hv, v4]
    refine limitVals_congr (fun c hc => ?_) (fun d c hd hc => ?_) hc p iv
    · exact ofComps_congr fun iv hv => a4 c iv hc (h.nv ▸ hv)
    · exact ofComps_congr fun iv hv => g4 d c iv hd hc (h.nv ▸ hv)
  · rw [f5 _ (hne _ (.inl rfl)), a4 c iv hc hv]
  · rw [f5 _ ?_, g4 d c iv hd hc hv]
    show sGrad d ≠ A
    cases d <;> simp only [sGrad] <;> omega
  · have m' : ∀ B, meanArray M.d3 B → a.arr ≠ B := fun B hB e => hm (e ▸ hB)
    rw [f5 a ha, f4 a fun h3 => m' _ (.inr (.inr (.inr ⟨h3, rfl⟩))), f3 a (m' _ (.inr (.inr (.inl rfl)))),
      f2 a (m' _ (.inr (.inl rfl))), f1 a (m' _ (.inl rfl))]

end Verif.Sdm
