import Verif.Observables.EvolutionSpec
import Verif.Observables.PairsAverage
/-
Theorems on the probability evolution (C96).
-/
namespace Rampack

open Spec

namespace ProbabilityEvolution

/-! ### Rows -/

/-- The number of the bin in two dimensions. -/
theorem atIndex2 {a f : HAxis} {bins : List (ℝ × Nat)} {init : ℝ} {d k : Nat} (hd : d < a.n) (hk : k < f.n) :
    Histogram.atIndex ⟨[a, f], bins, init⟩ [d, k] = .ok (f.n * d + k) := by
  have h : ∀ q ∈ [a, f].zip [d, k], q.2 < q.1.n := by
    intro q hq
    simp only [List.zip_cons_cons, List.zip_nil_left, List.mem_cons, List.not_mem_nil, or_false] at hq
    rcases hq with rfl | rfl
    · exact hd
    · exact hk
  unfold Histogram.atIndex
  rw [decide_eq_true h, Outcome.require_true, Outcome.ok_bind]
  simp [Histogram.flattenIndex]

theorem row_lt {n m d k : Nat} (hd : d < n) (hk : k < m) : m * d + k < n * m := by
  calc m * d + k < m * d + m := by omega
    _ = m * (d + 1) := by ring
    _ ≤ m * n := Nat.mul_le_mul_left m hd
    _ = n * m := by ring

/-- The sum over a row. -/
noncomputable def rowSum (bins : List (ℝ × Nat)) (m d : Nat) : ℝ := ((List.range m).map fun k => (bins.getD (m * d + k) (0, 0)).1).sum

theorem rowTotal_eq {a f : HAxis} {bins : List (ℝ × Nat)} {init : ℝ} (hl : bins.length = a.n * f.n) {d : Nat} (hd : d < a.n) :
    rowTotal ⟨[a, f], bins, init⟩ f.n d = .ok (rowSum bins f.n d) := by
  unfold rowTotal rowSum
  have key : ∀ K, K ≤ f.n → (List.range K).foldlM (addBin ⟨[a, f], bins, init⟩ d) 0 = .ok ((List.range K).map fun k => (bins.getD (f.n * d + k) (0, 0)).1).sum := by
    intro K
    induction K with
    | zero => intro _; rfl
    | succ K ih =>
      intro hK
      rw [List.range_succ, List.foldlM_append, ih (by omega), Outcome.ok_bind, List.map_append, List.sum_append]
      have hlt : f.n * d + K < bins.length := by rw [hl]; exact row_lt hd hK
      simp only [List.foldlM_cons, List.foldlM_nil, addBin, List.map_cons, List.map_nil, List.sum_cons, List.sum_nil]
      rw [atIndex2 hd hK, Outcome.ok_bind, vget_ok hlt, Outcome.ok_bind, List.getD_eq_getElem?_getD, List.getElem?_eq_getElem hlt]
      show Outcome.ok _ = _
      simp
  exact key f.n le_rfl

theorem divideRow_eq {a f : HAxis} {init total : ℝ} {d : Nat} (hd : d < a.n) {bins : List (ℝ × Nat)} (hl : bins.length = a.n * f.n) : ∀ K, K ≤ f.n →
    ∃ bins', (List.range K).foldlM (divideBin total d) ⟨[a, f], bins, init⟩ = .ok ⟨[a, f], bins', init⟩ ∧ bins'.length = bins.length ∧
      ∀ i, bins'[i]? = (bins[i]?).map fun b => if f.n * d ≤ i ∧ i < f.n * d + K then (b.1 / total, b.2) else b := by
  intro K
  induction K with
  | zero =>
    intro _
    refine ⟨bins, rfl, rfl, fun i => ?_⟩
    have : ¬ (f.n * d ≤ i ∧ i < f.n * d + 0) := by omega
    simp only [this, if_false]
    exact Option.map_id_apply.symm
  | succ K ih =>
    intro hK
    obtain ⟨bins', h1, h2, h3⟩ := ih (by omega)
    have hlt : f.n * d + K < bins'.length := by rw [h2, hl]; exact row_lt hd hK
    refine ⟨bins'.set (f.n * d + K) (bins'[f.n * d + K].1 / total, bins'[f.n * d + K].2), ?_, by rw [List.length_set, h2], fun i => ?_⟩
    · rw [List.range_succ, List.foldlM_append, h1, Outcome.ok_bind]
      simp only [List.foldlM_cons, List.foldlM_nil, divideBin]
      rw [atIndex2 hd hK, Outcome.ok_bind, vget_ok hlt, Outcome.ok_bind, vset_ok hlt, Outcome.ok_bind]
      rfl
    · rw [List.getElem?_set]
      by_cases hi : f.n * d + K = i
      · have h4 := h3 i
        subst hi
        rw [if_pos rfl, if_pos hlt]
        rw [List.getElem?_eq_getElem hlt, List.getElem?_eq_getElem (by omega)] at h4
        rw [List.getElem?_eq_getElem (by omega), Option.map_some, if_pos (by omega)]
        rw [Option.map_some, if_neg (by omega)] at h4
        injection h4 with h4
        rw [h4]
      · rw [if_neg hi, h3 i]
        have : (f.n * d ≤ i ∧ i < f.n * d + (K + 1)) ↔ (f.n * d ≤ i ∧ i < f.n * d + K) := by omega
        simp only [this]

/-- A bin after its row is divided by the sum. -/
noncomputable def normalized (bins : List (ℝ × Nat)) (m d : Nat) (b : ℝ × Nat) : ℝ × Nat :=
  open Classical in if rowSum bins m d = 0 then b else (b.1 / rowSum bins m d, b.2)

theorem rowSum_congr {bins bins' : List (ℝ × Nat)} {m d : Nat} (h : ∀ k, k < m → bins'[m * d + k]? = bins[m * d + k]?) : rowSum bins' m d = rowSum bins m d := by
  unfold rowSum
  congr 1
  refine List.map_congr_left fun k hk => ?_
  rw [List.getD_eq_getElem?_getD, List.getD_eq_getElem?_getD, h k (List.mem_range.mp hk)]

theorem normalizeRows_eq {a f : HAxis} {init : ℝ} {bins : List (ℝ × Nat)} (hl : bins.length = a.n * f.n) : ∀ D, D ≤ a.n →
    ∃ bins', (List.range D).foldlM (normalizeRow f.n) ⟨[a, f], bins, init⟩ = .ok ⟨[a, f], bins', init⟩ ∧ bins'.length = bins.length ∧
      ∀ d k, k < f.n → bins'[f.n * d + k]? = (bins[f.n * d + k]?).map fun b => if d < D then normalized bins f.n d b else b := by
  intro D
  induction D with
  | zero =>
    intro _
    refine ⟨bins, rfl, rfl, fun d k hk => ?_⟩
    simp only [not_lt_zero', if_false]
    exact Option.map_id_apply.symm
  | succ D ih =>
    intro hD
    obtain ⟨bins', h1, h2, h3⟩ := ih (by omega)
    have hrow : rowSum bins' f.n D = rowSum bins f.n D := rowSum_congr fun k hk => by
      rw [h3 D k hk]
      simp only [lt_irrefl, if_false]
      exact Option.map_id_apply
    have hstep : ∃ bins'', normalizeRow f.n ⟨[a, f], bins', init⟩ D = .ok ⟨[a, f], bins'', init⟩ ∧ bins''.length = bins'.length ∧
        ∀ i, bins''[i]? = (bins'[i]?).map fun b => if f.n * D ≤ i ∧ i < f.n * D + f.n then normalized bins f.n D b else b := by
      unfold normalizeRow
      rw [rowTotal_eq (by rw [h2, hl]) hD, Outcome.ok_bind, hrow]
      by_cases h0 : rowSum bins f.n D = 0
      · rw [if_pos h0]
        refine ⟨bins', rfl, rfl, fun i => ?_⟩
        unfold normalized
        simp only [h0, if_true, ite_self]
        exact Option.map_id_apply.symm
      · rw [if_neg h0]
        obtain ⟨bins'', g1, g2, g3⟩ := divideRow_eq (total := rowSum bins f.n D) (init := init) hD (bins := bins') (by rw [h2, hl]) f.n le_rfl
        refine ⟨bins'', g1, g2, fun i => ?_⟩
        rw [g3]
        unfold normalized
        simp only [h0, if_false]
    obtain ⟨bins'', g1, g2, g3⟩ := hstep
    refine ⟨bins'', ?_, by rw [g2, h2], fun d k hk => ?_⟩
    · rw [List.range_succ, List.foldlM_append, h1, Outcome.ok_bind]
      simp only [List.foldlM_cons, List.foldlM_nil]
      rw [g1, Outcome.ok_bind]
      rfl
    · rw [g3, h3 d k hk, Option.map_map]
      congr 1
      funext b
      simp only [Function.comp]
      have hiff : (f.n * D ≤ f.n * d + k ∧ f.n * d + k < f.n * D + f.n) ↔ d = D := by
        constructor
        · rintro ⟨q1, q2⟩
          have e1 : D < d + 1 := by
            by_contra hc
            have : f.n * (d + 1) ≤ f.n * D := Nat.mul_le_mul_left _ (by omega)
            rw [Nat.mul_add, Nat.mul_one] at this
            omega
          have e2 : d < D + 1 := by
            by_contra hc
            have : f.n * (D + 1) ≤ f.n * d := Nat.mul_le_mul_left _ (by omega)
            rw [Nat.mul_add, Nat.mul_one] at this
            omega
          omega
        · rintro rfl; omega
      rcases Nat.lt_trichotomy d D with h4 | h4 | h4
      · rw [if_neg (by rw [hiff]; omega), if_pos h4, if_pos (by omega)]
      · rw [if_pos (hiff.mpr h4), if_neg (by omega), if_pos (by omega), h4]
      · rw [if_neg (by rw [hiff]; omega), if_neg (by omega), if_neg (by omega)]

/-! ### The printed values -/

/-- What is added for one pair. -/
noncomputable def evolutionSample (maxR lo hi : ℝ) (val : PairItem → ℝ) (p : PairItem) : Option (List ℝ × ℝ) :=
  open Classical in if p.i = p.j then none else if p.d.norm > maxR then none else if val p < lo ∨ val p > hi then none else some ([p.d.norm, val p], 1)

theorem box2 {a f : ℝ × ℝ × Nat} {d k : Nat} {x y : ℝ} : BoxContains [a, f] [d, k] [x, y] ↔ BinContains a d x ∧ BinContains f k y := by
  unfold BoxContains
  constructor
  · intro h
    exact ⟨h.2 0 a d x rfl rfl rfl, h.2 1 f k y rfl rfl rfl⟩
  · intro h
    refine ⟨rfl, fun i a' j x' h1 h2 h3 => ?_⟩
    match i with
    | 0 => simp at h1 h2 h3; subst h1 h2 h3; exact h.1
    | 1 => simp at h1 h2 h3; subst h1 h2 h3; exact h.2
    | i + 2 => simp at h1

theorem within2 {a f : ℝ × ℝ × Nat} {x y : ℝ} (h1 : a.1 ≤ x ∧ x ≤ a.2.1) (h2 : f.1 ≤ y ∧ y ≤ f.2.1) : WithinRanges [a, f] [x, y] := by
  intro i a' x' e1 e2
  match i with
  | 0 => simp at e1 e2; subst e1 e2; exact h1
  | 1 => simp at e1 e2; subst e1 e2; exact h2
  | i + 2 => simp at e1

theorem binContains_ge {a : ℝ × ℝ × Nat} (ha : a.1 < a.2.1) {k : Nat} {x : ℝ} (h : BinContains a k x) : a.1 ≤ x := by
  have := binEdge_mono ha (Nat.zero_le k)
  have e : binEdge a 0 = a.1 := by simp [binEdge]
  rw [e] at this
  exact this.trans h.2.1

/-- One of the bins contains the value, and only one. -/
theorem bin_unique {f : ℝ × ℝ × Nat} (hf : f.1 < f.2.1) (hn : 0 < f.2.2) (hn' : f.2.2 < 2 ^ 64) {y : ℝ} (hy : f.1 ≤ y ∧ y ≤ f.2.1) :
    ∃ k, k < f.2.2 ∧ BinContains f k y ∧ ∀ k', BinContains f k' y → k' = k := by
  obtain ⟨H, hH⟩ := ((C43_create [f] 0).1).mpr (by simp only [List.mem_singleton, forall_eq]; exact ⟨hf, hn⟩)
  obtain ⟨idx, k, h1, h2, -⟩ := (C43_position (by simpa using hn') hH (pos := [y]) rfl).1 (within1 hy)
  obtain ⟨j, rfl⟩ : ∃ j, idx = [j] := List.length_eq_one_iff.mp (by simpa using h1.1)
  refine ⟨j, (box1.mp h1).1, box1.mp h1, fun k' hk' => ?_⟩
  have := h2 [k'] (box1.mpr hk')
  simpa using this

theorem sum_indicator (k : Nat) : ∀ l : List Nat, (l.map fun k' => if k' = k then 1 else 0).sum = l.count k
  | [] => rfl
  | x :: l => by
    rw [List.map_cons, List.sum_cons, sum_indicator k l, List.count_cons]
    by_cases h : x = k
    · simp [h]; omega
    · simp [h]

open Classical in
/-- Counting elements by one of finitely many kinds. -/
theorem count_kinds {α : Type} (P : α → Prop) (Q : Nat → α → Prop) (m : Nat) (h : ∀ x, P x → ∃ k, k < m ∧ Q k x ∧ ∀ k', Q k' x → k' = k) (h' : ∀ k x, Q k x → P x) :
    ∀ l : List α, ((List.range m).map fun k => (l.filter fun x => Q k x).length).sum = (l.filter fun x => P x).length
  | [] => by simp
  | x :: l => by
    have ih := count_kinds P Q m h h' l
    have e : ∀ k, ((x :: l).filter fun x => Q k x).length = (if Q k x then 1 else 0) + (l.filter fun x => Q k x).length := by
      intro k
      rw [List.filter_cons]
      by_cases hq : Q k x
      · simp [hq]; omega
      · simp [hq]
    simp only [e]
    rw [List.sum_map_add, ih, List.filter_cons]
    by_cases hp : P x
    · obtain ⟨k, hk, hq, hu⟩ := h x hp
      have : ((List.range m).map fun k => if Q k x then 1 else 0).sum = 1 := by
        rw [List.map_congr_left (g := fun k' => if k' = k then 1 else 0) (fun k' _ => by
          by_cases hc : k' = k
          · rw [if_pos hc, if_pos (hc ▸ hq)]
          · rw [if_neg hc, if_neg (fun hh => hc (hu k' hh))])]
        rw [sum_indicator]
        simp [List.count_eq_one_of_mem List.nodup_range (List.mem_range.mpr hk)]
      rw [this]
      simp [hp]; omega
    · have : ((List.range m).map fun k => if Q k x then 1 else 0).sum = 0 := by
        rw [List.map_congr_left (g := fun _ => 0) (fun k' _ => if_neg fun hh => hp (h' k' x hh))]
        simp
      rw [this]
      simp [hp]

theorem sum_swap {α β : Type} (f : α → β → Nat) (l : List α) (l' : List β) : (l.map fun a => (l'.map fun b => f a b).sum).sum = (l'.map fun b => (l.map fun a => f a b).sum).sum := by
  induction l with
  | nil => simp
  | cons a l ih => simp [ih, List.sum_map_add]

/-- **C96** Pairs in all bins for a distance are pairs of different particles at this distance with the value of the function in the given range. -/
theorem C96_total {a f : ℝ × ℝ × Nat} (hf : f.1 < f.2.1) (hn : 0 < f.2.2) (hn' : f.2.2 < 2 ^ 64) (val : View → PairItem → ℝ) (runs : List PairRun) (d : Nat) :
    ((List.range f.2.2).map fun k => evolutionCount a f val runs d k).sum = distanceCount a f val runs d := by
  classical
  unfold evolutionCount distanceCount
  rw [sum_swap]
  congr 1
  refine List.map_congr_left fun r _ => ?_
  have := count_kinds (fun p : PairItem => p.i ≠ p.j ∧ BinContains a d p.d.norm ∧ f.1 ≤ val r.V p ∧ val r.V p ≤ f.2.1)
    (fun k p => p.i ≠ p.j ∧ BinContains a d p.d.norm ∧ BinContains f k (val r.V p)) f.2.2 (by
      rintro p ⟨h1, h2, h3⟩
      obtain ⟨k, hk, hb, hu⟩ := bin_unique hf hn hn' h3
      exact ⟨k, hk, ⟨h1, h2, hb⟩, fun k' hh => hu k' hh.2.2⟩) (by
      rintro k p ⟨h1, h2, h3⟩
      exact ⟨h1, h2, binContains_ge hf h3, binContains_le hf hn h3⟩) r.items
  convert this

/-- The dumped histogram and its bins. -/
theorem dumpSum_of {B : HistogramBuilder} {H : Histogram} (hH : Histogram.create B.spec B.init = .ok H) {sums : List (BinQuotient × Nat)} (h : B.dumpHistogram .sum = .ok sums)
    (hn : B.numSnapshots ≠ 0) : dumpSum B = .ok { H with bins := B.histogram.bins.map fun b => (b.1 / (B.numSnapshots : ℝ), b.2) } ∧
    sums = (B.histogram.bins.map fun b => (b.1 / (B.numSnapshots : ℝ), b.2)).map fun b => (.num b.1, b.2) := by
  unfold HistogramBuilder.dumpHistogram at h
  unfold dumpSum
  rw [hH, Outcome.ok_bind] at h ⊢
  rw [if_neg hn] at h ⊢
  refine ⟨rfl, ?_⟩
  injection h with h
  rw [← h, List.map_map]
  refine List.map_congr_left fun b _ => ?_
  simp only [Function.comp, HistogramBuilder.divide, hn, if_false]

theorem builder_add_rest {B B' : HistogramBuilder} {t : Nat} {pos : List ℝ} {v : ℝ} (h : B.add t pos v = .ok B') :
    B'.spec = B.spec ∧ B'.init = B.init ∧ B'.numSnapshots = B.numSnapshots := by
  unfold HistogramBuilder.add at h
  obtain ⟨_, -, h⟩ := Outcome.bind_eq_ok.mp h
  obtain ⟨_, -, h⟩ := Outcome.bind_eq_ok.mp h
  obtain ⟨_, -, h⟩ := Outcome.bind_eq_ok.mp h
  obtain ⟨_, -, h⟩ := Outcome.bind_eq_ok.mp h
  obtain ⟨_, -, h⟩ := Outcome.bind_eq_ok.mp h
  obtain ⟨_, -, h⟩ := Outcome.bind_eq_ok.mp h
  injection h with h
  subst h
  exact ⟨rfl, rfl, rfl⟩

theorem builder_adds_rest : ∀ {l : List Sample} {B B' : HistogramBuilder}, l.foldlM (fun (B : HistogramBuilder) x => B.add x.thread x.pos x.value) B = .ok B' →
    B'.spec = B.spec ∧ B'.init = B.init ∧ B'.numSnapshots = B.numSnapshots
  | [], B, B', h => by injection h with h; subst h; exact ⟨rfl, rfl, rfl⟩
  | x :: l, B, B', h => by
    rw [List.foldlM_cons] at h
    obtain ⟨B1, h1, h2⟩ := Outcome.bind_eq_ok.mp h
    obtain ⟨a, b, c⟩ := builder_adds_rest h2
    obtain ⟨a', b', c'⟩ := builder_add_rest h1
    exact ⟨a.trans a', b.trans b', c.trans c'⟩

theorem runHist_rest : ∀ {hist : List HistSnapshot} {B B' : HistogramBuilder}, (∀ s ∈ hist, s.factors = none) → runHist B hist = .ok B' →
    B'.spec = B.spec ∧ B'.init = B.init ∧ B'.numSnapshots = B.numSnapshots + hist.length
  | [], B, B', _, h => by injection h with h; subst h; exact ⟨rfl, rfl, rfl⟩
  | s :: hist, B, B', hf, h => by
    unfold runHist at h
    rw [List.foldlM_cons] at h
    obtain ⟨B1, h1, h2⟩ := Outcome.bind_eq_ok.mp h
    obtain ⟨a, b, c⟩ := runHist_rest (fun s hs => hf s (List.mem_cons_of_mem _ hs)) h2
    unfold runSnapshot at h1
    obtain ⟨B2, h3, h1⟩ := Outcome.bind_eq_ok.mp h1
    rw [hf s List.mem_cons_self] at h1
    simp only [] at h1
    unfold HistogramBuilder.nextSnapshot at h1
    obtain ⟨H, -, h1⟩ := Outcome.bind_eq_ok.mp h1
    injection h1 with h1
    obtain ⟨a', b', c'⟩ := builder_adds_rest h3
    subst h1
    simp only at a b c
    refine ⟨a.trans a', b.trans b', ?_⟩
    rw [c, c', List.length_cons]
    omega

open Classical in
/-- **C96** After any number of snapshots, whatever the number of threads and the order of calls, values printed for all bins are the documented ones: average numbers of pairs, or densities of
the conditional probability with the documented normalisation; bins for distances without pairs are 0. -/
theorem C96_values {E : PairEnumerator} {G : Geometry} {maxR lo hi : ℝ} {n m threads : Nat} (hn : n < 2 ^ 64) (hm : m < 2 ^ 64) {f : CorrelationFn} {B : HistogramBuilder}
    (h : (PairObservable.evolution maxR n lo hi m f).create threads = .ok B) {runs : List PairRun} (hr : ∀ r ∈ runs, r.Legal E G threads) (hne : runs ≠ [])
    {val : View → PairItem → ℝ} (hv : ∀ r ∈ runs, ∀ p ∈ r.items, p.i ≠ p.j → p.d.norm ≤ maxR → ∃ s t, r.V.shapes[p.i]? = some s ∧ r.V.shapes[p.j]? = some t ∧
      f.calculate G s t p.d = .ok (val r.V p)) (norm : EvolutionNorm) :
    ∃ B' H, runPairs (.evolution maxR n lo hi m f) E G B runs = .ok B' ∧ result norm B' = .ok H ∧ H.bins.length = n * m ∧ ∀ d k, d < n → k < m →
      H.atIndex [d, k] = .ok (m * d + k) ∧
      H.bins[m * d + k]? = some (evolutionValue norm (0, maxR, n) (lo, hi, m) val runs d k, evolutionCount (0, maxR, n) (lo, hi, m) val runs d k) := by
  unfold PairObservable.create PairObservable.spec at h
  have h0 := h
  unfold HistogramBuilder.create at h0
  obtain ⟨H, hH, h0⟩ := Outcome.bind_eq_ok.mp h0
  injection h0 with h0
  have hHa : H.axes = [⟨0, maxR, (maxR - 0) / n, n⟩, ⟨lo, hi, (hi - lo) / m, m⟩] := by
    obtain ⟨-, rfl⟩ := Histogram.create_ok hH
    rfl
  have hpa := (Histogram.create_ok hH).1 (0, maxR, n) List.mem_cons_self
  have hpf := (Histogram.create_ok hH).1 (lo, hi, m) (List.mem_cons_of_mem _ List.mem_cons_self)
  simp only at hpa hpf
  have hlen : H.bins.length = n * m := by
    rw [(C43_create _ _).2.2 H hH]
    simp
  have hsample : ∀ r ∈ runs, ∀ c ∈ r.calls, (PairObservable.evolution maxR n lo hi m f).sample r.V G c.2 = .ok (evolutionSample maxR lo hi (val r.V) c.2) := by
    intro r hr' c hc
    have hi' : c.2 ∈ r.items := (hr r hr').2.2.2.1.mem_iff.mp (List.mem_map_of_mem hc)
    unfold PairObservable.sample evolutionSample
    simp only []
    split_ifs with q1 q2 q3
    · rfl
    · rfl
    all_goals
      obtain ⟨s, t, hs, ht, e⟩ := hv r hr' c.2 hi' q1 (not_lt.mp q2)
      obtain ⟨ls, es⟩ := List.getElem?_eq_some_iff.mp hs
      obtain ⟨lt, et⟩ := List.getElem?_eq_some_iff.mp ht
      rw [vget_ok ls, Outcome.ok_bind, vget_ok lt, Outcome.ok_bind, es, et, e, Outcome.ok_bind]
    · rw [if_pos q3]; rfl
    · rw [if_neg q3]; rfl
  have hrun := snapshots_run (O := .evolution maxR n lo hi m f) (E := E) (G := G) (so := fun V => evolutionSample maxR lo hi (val V)) (f := fun _ => none) (runs := runs)
    (B := B) rfl hsample (fun r hr' B' hB' => rfl)
  obtain ⟨hist, hhist⟩ : ∃ hist, hist = runs.map fun r => (⟨samplesOf (evolutionSample maxR lo hi (val r.V)) r.calls, none⟩ : HistSnapshot) := ⟨_, rfl⟩
  rw [← hhist] at hrun
  have hlegal : LegalHist [(0, maxR, n), (lo, hi, m)] threads B.histogram.bins.length hist := by
    intro s hs
    rw [hhist] at hs
    obtain ⟨r, hr', rfl⟩ := List.mem_map.mp hs
    refine ⟨fun x hx => ?_, fun f hf => by cases hf⟩
    obtain ⟨c, hc, e⟩ := List.mem_filterMap.mp hx
    unfold evolutionSample at e
    split_ifs at e with q1 q2 q3
    · cases e
    · cases e
    · cases e
    · injection e with e
      subst e
      push Not at q3
      exact ⟨(hr r hr').2.2.2.2 c hc, rfl, within2 ⟨norm_nonneg' _, not_lt.mp q2⟩ q3⟩
  obtain ⟨B', sums, avgs, g1, g2, -, g3, -, -, g4⟩ := C44_build (spec := [(0, maxR, n), (lo, hi, m)]) (by
    intro a ha
    simp only [List.mem_cons, List.not_mem_nil, or_false] at ha
    rcases ha with rfl | rfl
    · exact hn
    · exact hm) h hlegal
  have hnone : ∀ s ∈ hist, s.factors = none := by
    intro s hs
    rw [hhist] at hs
    obtain ⟨r, -, rfl⟩ := List.mem_map.mp hs
    rfl
  have hhl : hist.length = runs.length := by rw [hhist, List.length_map]
  have hrl : 0 < runs.length := List.length_pos_of_ne_nil hne
  obtain ⟨k1, k2, k3⟩ := runHist_rest hnone g1
  have k3' : B'.numSnapshots = runs.length := by rw [k3, ← h0, hhl]; simp
  obtain ⟨d1, d2⟩ := dumpSum_of (B := B') (H := H) (by rw [k1, k2, ← h0]; exact hH) g2 (by rw [k3']; omega)
  obtain ⟨bins, hbins⟩ : ∃ bins, bins = B'.histogram.bins.map fun b => (b.1 / (B'.numSnapshots : ℝ), b.2) := ⟨_, rfl⟩
  rw [← hbins] at d1 d2
  have hbl : bins.length = n * m := by
    have : sums.length = bins.length := by rw [d2, List.length_map]
    rw [← this, g3, ← h0]
    exact hlen
  -- bins before normalisation
  have hbin : ∀ d k, d < n → k < m → bins[m * d + k]? = some ((evolutionCount (0, maxR, n) (lo, hi, m) val runs d k : ℝ) / runs.length, evolutionCount (0, maxR, n) (lo, hi, m) val runs d k) := by
    intro d k hd hk
    have hat : B.histogram.atIndex [d, k] = .ok (m * d + k) := by
      rw [← h0]
      have := atIndex2 (a := ⟨0, maxR, (maxR - 0) / n, n⟩) (f := ⟨lo, hi, (hi - lo) / m, m⟩) (bins := H.bins) (init := H.init) hd hk
      rw [← hHa] at this
      exact this
    obtain ⟨g5, -⟩ := g4 (by rw [hhist]; simpa using hne) [d, k] (m * d + k) ⟨rfl, by
      intro i a' j e1 e2
      match i with
      | 0 => simp at e1 e2; subst e1 e2; exact hd
      | 1 => simp at e1 e2; subst e1 e2; exact hk
      | i + 2 => simp at e1⟩ hat
    have hval : ∀ r : PairRun, r ∈ runs → ((samplesOf (evolutionSample maxR lo hi (val r.V)) r.calls).filter fun x => BoxContains [(0, maxR, n), (lo, hi, m)] [d, k] x.pos).map Sample.value =
        List.replicate ((r.items.filter fun p => p.i ≠ p.j ∧ BinContains (0, maxR, n) d p.d.norm ∧ BinContains (lo, hi, m) k (val r.V p)).length) 1 := by
      intro r hr'
      rw [samples_filter (Q := fun p => p.i ≠ p.j ∧ BinContains (0, maxR, n) d p.d.norm ∧ BinContains (lo, hi, m) k (val r.V p)) (v := fun _ => 1)
        (P := fun pos => BoxContains [(0, maxR, n), (lo, hi, m)] [d, k] pos)]
      · rw [List.map_const']
        congr 1
        exact ((hr r hr').2.2.2.1.filter _).length_eq
      · intro p
        constructor
        · rintro ⟨q1, q2, q3⟩
          refine ⟨_, by
            unfold evolutionSample
            rw [if_neg q1, if_neg (not_lt.mpr (binContains_le (a := (0, maxR, n)) hpa.1 hpa.2 q2)), if_neg]
            push Not
            exact ⟨binContains_ge hpf.1 q3, binContains_le hpf.1 hpf.2 q3⟩, box2.mpr ⟨q2, q3⟩, rfl⟩
        · intro hq q hs hb
          unfold evolutionSample at hs
          split_ifs at hs with q1 q2 q3
          · injection hs with hs
            subst hs
            exact hq ⟨q1, box2.mp hb⟩
    have hsum : ∀ r ∈ runs, snapshotSum [(0, maxR, n), (lo, hi, m)] [d, k] ⟨samplesOf (evolutionSample maxR lo hi (val r.V)) r.calls, none⟩ =
        ((r.items.filter fun p => p.i ≠ p.j ∧ BinContains (0, maxR, n) d p.d.norm ∧ BinContains (lo, hi, m) k (val r.V p)).length : ℝ) := by
      intro r hr'
      unfold snapshotSum
      rw [hval r hr', List.sum_replicate, nsmul_eq_mul, mul_one]
    have hcount : ∀ r ∈ runs, snapshotCount [(0, maxR, n), (lo, hi, m)] [d, k] ⟨samplesOf (evolutionSample maxR lo hi (val r.V)) r.calls, none⟩ =
        (r.items.filter fun p => p.i ≠ p.j ∧ BinContains (0, maxR, n) d p.d.norm ∧ BinContains (lo, hi, m) k (val r.V p)).length := by
      intro r hr'
      have := congrArg List.length (hval r hr')
      rw [List.length_map, List.length_replicate] at this
      exact this
    have e1 : (hist.map (snapshotCount [(0, maxR, n), (lo, hi, m)] [d, k])).sum = evolutionCount (0, maxR, n) (lo, hi, m) val runs d k := by
      rw [hhist, List.map_map]
      unfold evolutionCount
      congr 1
      exact List.map_congr_left fun r hr' => hcount r hr'
    have e2 : (hist.map fun s => snapshotSum [(0, maxR, n), (lo, hi, m)] [d, k] s * factorOf s (m * d + k)).sum = (evolutionCount (0, maxR, n) (lo, hi, m) val runs d k : ℝ) := by
      rw [hhist, List.map_map]
      unfold evolutionCount
      rw [Nat.cast_list_sum, List.map_map]
      congr 1
      refine List.map_congr_left fun r hr' => ?_
      simp only [Function.comp]
      rw [hsum r hr']
      unfold factorOf
      rw [mul_one]
    rw [e1, e2, hhl, d2, List.getElem?_map] at g5
    obtain ⟨b, hb, eb⟩ := Option.map_eq_some_iff.mp g5
    rw [hb]
    simp only [Prod.mk.injEq, BinQuotient.num.injEq] at eb
    congr 1
    exact Prod.ext eb.1 eb.2
  have hsumrow : ∀ d, d < n → rowSum bins m d = (distanceCount (0, maxR, n) (lo, hi, m) val runs d : ℝ) / runs.length := by
    intro d hd
    rw [← C96_total hpf.1 hpf.2 hm]
    unfold rowSum
    rw [Nat.cast_list_sum, List.map_map, div_eq_mul_inv, ← List.sum_map_mul_right]
    congr 1
    refine List.map_congr_left fun k hk => ?_
    rw [List.getD_eq_getElem?_getD, hbin d k hd (List.mem_range.mp hk)]
    rfl
  have hrl' : (runs.length : ℝ) ≠ 0 := by exact_mod_cast hrl.ne'
  have hle : ∀ d k, k < m → distanceCount (0, maxR, n) (lo, hi, m) val runs d = 0 → evolutionCount (0, maxR, n) (lo, hi, m) val runs d k = 0 := by
    intro d k hk h0
    rw [← C96_total hpf.1 hpf.2 hm] at h0
    exact List.sum_eq_zero_iff.mp h0 _ (List.mem_map_of_mem (List.mem_range.mpr hk))
  have hnorm : ∀ d k, d < n → k < m → normalized bins m d ((evolutionCount (0, maxR, n) (lo, hi, m) val runs d k : ℝ) / runs.length, evolutionCount (0, maxR, n) (lo, hi, m) val runs d k) =
      ((evolutionCount (0, maxR, n) (lo, hi, m) val runs d k : ℝ) / distanceCount (0, maxR, n) (lo, hi, m) val runs d, evolutionCount (0, maxR, n) (lo, hi, m) val runs d k) := by
    intro d k hd hk
    unfold normalized
    rw [hsumrow d hd]
    split_ifs with hz
    · have hz' : distanceCount (0, maxR, n) (lo, hi, m) val runs d = 0 := by
        rcases div_eq_zero_iff.mp hz with hz | hz
        · exact_mod_cast hz
        · exact absurd hz hrl'
      rw [hle d k hk hz', hz']
      simp
    · have hz' : (distanceCount (0, maxR, n) (lo, hi, m) val runs d : ℝ) ≠ 0 := fun hc => hz (by rw [hc, zero_div])
      congr 1
      field_simp
  have hat : ∀ (bins : List (ℝ × Nat)) (init : ℝ) d k, d < n → k < m → Histogram.atIndex ⟨[⟨0, maxR, (maxR - 0) / n, n⟩, ⟨lo, hi, (hi - lo) / m, m⟩], bins, init⟩ [d, k] = .ok (m * d + k) :=
    fun bins init d k hd hk => atIndex2 (a := ⟨0, maxR, (maxR - 0) / n, n⟩) (f := ⟨lo, hi, (hi - lo) / m, m⟩) hd hk
  obtain ⟨bins', r1, r2, r3⟩ := normalizeRows_eq (a := ⟨0, maxR, (maxR - 0) / n, n⟩) (f := ⟨lo, hi, (hi - lo) / m, m⟩) (init := H.init) (bins := bins) hbl n le_rfl
  have hbin' : ∀ d k, d < n → k < m → bins'[m * d + k]? = some ((evolutionCount (0, maxR, n) (lo, hi, m) val runs d k : ℝ) / distanceCount (0, maxR, n) (lo, hi, m) val runs d,
      evolutionCount (0, maxR, n) (lo, hi, m) val runs d k) := by
    intro d k hd hk
    have := r3 d k hk
    simp only at this
    rw [this, hbin d k hd hk, Option.map_some, if_pos hd, hnorm d k hd hk]
  have hv0 : ∀ (bins : List (ℝ × Nat)), vget (Histogram.axes ⟨[(⟨0, maxR, (maxR - 0) / n, n⟩ : HAxis), ⟨lo, hi, (hi - lo) / m, m⟩], bins, H.init⟩) 0 = .ok ⟨0, maxR, (maxR - 0) / n, n⟩ := fun _ => rfl
  have hv1 : ∀ (bins : List (ℝ × Nat)), vget (Histogram.axes ⟨[(⟨0, maxR, (maxR - 0) / n, n⟩ : HAxis), ⟨lo, hi, (hi - lo) / m, m⟩], bins, H.init⟩) 1 = .ok ⟨lo, hi, (hi - lo) / m, m⟩ := fun _ => rfl
  rw [show ({ H with bins := bins } : Histogram) = ⟨[⟨0, maxR, (maxR - 0) / n, n⟩, ⟨lo, hi, (hi - lo) / m, m⟩], bins, H.init⟩ by rw [← hHa]] at d1
  refine ⟨B', ?_⟩
  rw [hrun]
  unfold result
  rw [d1, Outcome.ok_bind]
  have hhl' : (hi - lo : ℝ) ≠ 0 := by linarith [hpf.1]
  have hm' : (m : ℝ) ≠ 0 := by exact_mod_cast hpf.2.ne'
  cases norm with
  | avgCount => exact ⟨_, g1, rfl, hbl, fun d k hd hk => ⟨hat _ _ d k hd hk, hbin d k hd hk⟩⟩
  | pdf =>
    refine ⟨scale (scale ⟨[⟨0, maxR, (maxR - 0) / n, n⟩, ⟨lo, hi, (hi - lo) / m, m⟩], bins', H.init⟩ m) (1 / (hi - lo)), g1, ?_, ?_, fun d k hd hk => ⟨hat _ _ d k hd hk, ?_⟩⟩
    · unfold renormalize
      simp only []
      rw [hv0 bins, Outcome.ok_bind, hv1 bins, Outcome.ok_bind]
      simp only [] at r1 ⊢
      rw [r1, Outcome.ok_bind]
      rfl
    · simp only [scale, List.length_map]
      rw [r2, hbl]
    · simp only [scale, List.getElem?_map, hbin' d k hd hk, Option.map_some, evolutionValue]
      congr 2
      rw [div_div_eq_mul_div]
      ring
  | unit =>
    refine ⟨scale ⟨[⟨0, maxR, (maxR - 0) / n, n⟩, ⟨lo, hi, (hi - lo) / m, m⟩], bins', H.init⟩ m, g1, ?_, ?_, fun d k hd hk => ⟨hat _ _ d k hd hk, ?_⟩⟩
    · unfold renormalize
      simp only []
      rw [hv0 bins, Outcome.ok_bind, hv1 bins, Outcome.ok_bind]
      simp only [] at r1 ⊢
      rw [r1, Outcome.ok_bind]
      rfl
    · simp only [scale, List.length_map]
      rw [r2, hbl]
    · simp only [scale, List.getElem?_map, hbin' d k hd hk, Option.map_some, evolutionValue]

/-- **C96** For each distance at which there are pairs with values in the range, the integral over the range is 1 with normalisation to the probability density, and the average over bins is 1
with normalisation to unity. -/
theorem C96_normalised {a f : ℝ × ℝ × Nat} (hf : f.1 < f.2.1) (hn : 0 < f.2.2) (hn' : f.2.2 < 2 ^ 64) (val : View → PairItem → ℝ) (runs : List PairRun) {d : Nat}
    (hd : distanceCount a f val runs d ≠ 0) :
    ((List.range f.2.2).map fun k => evolutionValue .pdf a f val runs d k * ((f.2.1 - f.1) / f.2.2)).sum = 1 ∧
    ((List.range f.2.2).map fun k => evolutionValue .unit a f val runs d k).sum / f.2.2 = 1 := by
  have h1 : (f.2.1 - f.1) / f.2.2 ≠ 0 := div_ne_zero (by linarith) (by exact_mod_cast hn.ne')
  have h2 : (f.2.2 : ℝ) ≠ 0 := by exact_mod_cast hn.ne'
  have h3 : (distanceCount a f val runs d : ℝ) ≠ 0 := by exact_mod_cast hd
  have h4 : ((List.range f.2.2).map fun k => (evolutionCount a f val runs d k : ℝ) / distanceCount a f val runs d).sum = 1 := by
    simp only [div_eq_mul_inv]
    rw [List.sum_map_mul_right, ← div_eq_mul_inv, div_eq_one_iff_eq h3, ← C96_total hf hn hn', Nat.cast_list_sum, List.map_map]
    rfl
  constructor
  · rw [← h4]
    congr 1
    refine List.map_congr_left fun k _ => ?_
    simp only [evolutionValue]
    rw [div_mul_cancel₀ _ h1]
  · simp only [evolutionValue]
    rw [List.sum_map_mul_right, h4, one_mul, div_self h2]

/-- Two crossed rods: the angle between them is collected, though a particle is also paired with itself. -/
example : ∃ B B' H, (PairObservable.evolution (1 / 2) 1 0 90 2 (.angle .primary)).create 2 = .ok B ∧
    runPairs (.evolution (1 / 2) 1 0 90 2 (.angle .primary)) (.radial "o") (Geometry.rod []) B [crossedRun] = .ok B' ∧ result .pdf B' = .ok H ∧ H.bins.length = 2 ∧
    distanceCount (0, 1 / 2, 1) (0, 90, 2) (fun _ _ => 90) [crossedRun] 0 = 1 := by
  obtain ⟨B, hB⟩ : ∃ B, (PairObservable.evolution (1 / 2) 1 0 90 2 (.angle .primary)).create 2 = .ok B := by
    unfold PairObservable.create HistogramBuilder.create
    obtain ⟨H, hH⟩ := ((C43_create (PairObservable.evolution (1 / 2) 1 0 90 2 (.angle .primary)).spec 0).1).mpr (by simp [PairObservable.spec])
    rw [hH]
    exact ⟨_, rfl⟩
  obtain ⟨B', H, h1, h2, h3, -⟩ := C96_values (E := .radial "o") (G := Geometry.rod []) (n := 1) (m := 2) (by norm_num) (by norm_num) hB (runs := [crossedRun])
    (by intro r hr; rw [List.mem_singleton.mp hr]; exact crossedRun_legal) (by simp) (val := fun _ _ => 90) (by
      intro r hr p hp hij _
      rw [List.mem_singleton.mp hr] at hp ⊢
      simp only [crossedRun, List.mem_cons, List.not_mem_nil, or_false] at hp
      rcases hp with rfl | rfl | rfl
      · exact absurd rfl hij
      · refine ⟨_, _, rfl, rfl, ?_⟩
        have ax : ∀ s, (Geometry.rod []).getAxis .primary s = .ok (s.rot.mulVec ⟨0, 0, 1⟩) := fun s => rfl
        unfold CorrelationFn.calculate
        rw [show (CorrelationFn.angle .primary).axis = .primary from rfl, ax, ax, Outcome.ok_bind, Outcome.ok_bind]
        unfold CorrelationFn.forAxes
        simp only []
        congr 1
        have hp := Real.pi_pos
        norm_num [Mat3.mulVec, Vec3.dot, one_row0, one_row1, one_row2]
        field_simp
        norm_num
      · exact absurd rfl hij) .pdf
  refine ⟨B, B', H, hB, h1, h2, h3, ?_⟩
  unfold distanceCount
  have hnx := norm_x (1 / 10) (by norm_num)
  norm_num [crossedRun, BinContains, binEdge, hnx]

end ProbabilityEvolution

end Rampack
