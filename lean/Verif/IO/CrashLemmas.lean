import Verif.IO.PlayLemmas
/-
Lemmas about opening trajectories, also broken ones, and about sessions.
-/
namespace Rampack

namespace Traj

open Rampack.Spec Rampack.Stream

theorem body_take {A : Arith} {N : Nat} {l : List Snapshot} (h : ∀ x ∈ l, Recordable A N x) {m : Nat} (hm : m ≤ l.length) :
    (l.flatMap (frameBytes A)).take (m * frameLength N) = (l.take m).flatMap (frameBytes A) := by
  conv_lhs => rw [← List.take_append_drop m l]
  rw [List.flatMap_append]
  have : ((l.take m).flatMap (frameBytes A)).length = m * frameLength N := by
    rw [body_length fun x hx => h x (List.mem_of_mem_take hx), List.length_take, min_eq_left hm]
  rw [← this]
  exact List.take_left

theorem frameLength_pos (N : Nat) : 0 < frameLength N := by unfold frameLength; omega

theorem Fits64.mono {N step n m : Nat} (h : Fits64 N step n) (hm : m ≤ n) : Fits64 N step m where
  molecules_pos := h.molecules_pos
  step_pos := h.step_pos
  step_lt := h.step_lt
  size := lt_of_le_of_lt (Nat.add_le_add_left (Nat.mul_le_mul_right _ hm) _) h.size
  molecules_lt := h.molecules_lt
  cycles := lt_of_le_of_lt (Nat.mul_le_mul_right _ hm) h.cycles

/-- A file with a header and the first `j` bytes of frames. -/
structure Cut (A : Arith) (N step : Nat) (l : List Snapshot) (j : Nat) (ks file : List Byte) : Prop where
  fits : Fits64 N step l.length
  frames : ∀ x ∈ l, Recordable A N x
  bytes : ks.length = 8
  number : leVal ks ≤ l.length
  cut : j ≤ l.length * frameLength N
  eq : file = rawHeader N step ks ++ (l.flatMap (frameBytes A)).take j

namespace Cut

variable {A : Arith} {N step j : Nat} {l : List Snapshot} {ks file : List Byte}

theorem length (h : Cut A N step l j ks file) : file.length = 33 + j := by
  rw [h.eq, List.length_append, rawHeader_length h.bytes, List.length_take, body_length h.frames, min_eq_left h.cut]

theorem le (h : Cut A N step l j ks file) : j / frameLength N ≤ l.length := by
  have := Nat.div_le_div_right (c := frameLength N) h.cut
  rwa [Nat.mul_div_cancel _ (frameLength_pos N)] at this

theorem holds (h : Cut A N step l j ks file) : Holds A N step (l.take (j / frameLength N)) file where
  fits := Fits64.mono h.fits (by rw [List.length_take]; exact min_le_right _ _)
  frames := fun x hx => h.frames x (List.mem_of_mem_take hx)
  parts := by
    refine ⟨rawHeader N step ks, ((l.flatMap (frameBytes A)).take j).drop (j / frameLength N * frameLength N), rawHeader_length h.bytes, ?_⟩
    rw [h.eq, List.append_assoc]
    congr 1
    conv_lhs => rw [← List.take_append_drop (j / frameLength N * frameLength N) ((l.flatMap (frameBytes A)).take j)]
    congr 1
    rw [List.take_take, min_eq_left (Nat.div_mul_le_self _ _), body_take h.frames h.le]

theorem header (h : Cut A N step l j ks file) : readHeader ((Stream.ofFile file).seek 0) =
    .ok (⟨1, 1, N, leVal ks, step⟩, ⟨file, 33, false, []⟩) := by
  rw [show (Stream.ofFile file).seek 0 = ⟨file, 0, false, []⟩ from rfl, h.eq]
  exact readHeader_ok h.bytes h.fits.molecules_pos (lt_trans h.fits.molecules_lt (by norm_num)) h.fits.step_pos h.fits.step_lt

theorem offset (h : Cut A N step l j ks file) : snapshotOffset ⟨1, 1, N, leVal ks, step⟩ (leVal ks) = ((33 + leVal ks * frameLength N : Nat) : Int) := by
  apply snapshotOffset_eq
  · exact h.fits.molecules_lt
  · refine lt_of_le_of_lt (Nat.add_le_add_left (Nat.mul_le_mul_right _ h.number) _) h.fits.size

theorem at_start (h : Cut A N step l j ks file) {n p : Nat} (hn : n = j / frameLength N) (M m : Nat) :
    At A N step (l.take (j / frameLength N)) 0 (Player.rewind ⟨M, m, N, n, step⟩ ⟨file, p, false, []⟩) := by
  refine ⟨Nat.zero_le _, file, [], M, m, h.holds, ?_⟩
  have : (l.take (j / frameLength N)).length = n := by rw [List.length_take, min_eq_left h.le, hn]
  rw [this]
  simp [Player.rewind, Stream.seek, headerSize]

/-- Opening with fixing. -/
theorem openFix (h : Cut A N step l j ks file) : ∃ p r, Player.openFix file N = .ok (p, r) ∧ At A N step (l.take (j / frameLength N)) 0 p ∧
    r.inferred = j / frameLength N ∧ r.remainder = j % frameLength N := by
  unfold Player.openFix
  have hN := h.fits.molecules_pos
  have hs := h.fits.step_pos
  simp only [hN, decide_true, Outcome.require_true, Outcome.ok_bind, h.header]
  rw [h.offset]
  have e : (⟨file, 33, false, []⟩ : Stream).seekEnd = ⟨file, 33 + j, false, []⟩ := by
    simp [Stream.seekEnd, h.length]
  rw [e]
  simp only [Stream.tell, Bool.false_eq_true, if_false]
  by_cases hj : ((33 + j : Nat) : Int) = ((33 + leVal ks * frameLength N : Nat) : Int)
  · rw [if_pos hj]
    have hj : j = leVal ks * frameLength N := by omega
    have hm : leVal ks = j / frameLength N := by rw [hj, Nat.mul_div_cancel _ (frameLength_pos N)]
    refine ⟨_, _, rfl, h.at_start hm 1 1, hm, ?_⟩
    simp only
    rw [hj, Nat.mul_mod_left]
  · rw [if_neg hj]
    have hsz := h.fits.size
    have hsub : u64 (((33 + j : Nat) : Int) - (headerSize : Int)).toNat = j := by
      have h1 : (((33 + j : Nat) : Int) - (headerSize : Int)).toNat = j := by unfold headerSize; omega
      rw [h1]
      apply Nat.mod_eq_of_lt
      have := h.cut
      unfold headerLength at hsz
      omega
    rw [hsub]
    unfold Player.tryFixing
    simp only
    rw [if_neg (by omega), if_neg (by simp), snapshotSize_eq (by exact h.fits.molecules_lt), if_neg (frameLength_pos N).ne']
    exact ⟨_, _, rfl, h.at_start rfl 1 1, rfl, rfl⟩

/-- Opening without fixing. -/
theorem open' (h : Cut A N step l j ks file) : (∃ p, Player.open' file = .ok p ∧ At A N step (l.take (j / frameLength N)) 0 p ∧ j = leVal ks * frameLength N) ∨
    (j ≠ leVal ks * frameLength N ∧ ∃ m, Player.open' file = .throw m) := by
  unfold Player.open'
  simp only [Outcome.ok_bind, h.header]
  rw [h.offset]
  have e : (⟨file, 33, false, []⟩ : Stream).seekEnd = ⟨file, 33 + j, false, []⟩ := by
    simp [Stream.seekEnd, h.length]
  rw [e]
  simp only [Stream.tell, Bool.false_eq_true, if_false]
  by_cases hj : ((33 + j : Nat) : Int) = ((33 + leVal ks * frameLength N : Nat) : Int)
  · left
    simp only [hj, decide_true, Outcome.require_true, Outcome.ok_bind, Outcome.pure_eq]
    have hj : j = leVal ks * frameLength N := by omega
    have hm : leVal ks = j / frameLength N := by rw [hj, Nat.mul_div_cancel _ (frameLength_pos N)]
    exact ⟨_, rfl, h.at_start hm 1 1, hj⟩
  · right
    refine ⟨fun hj' => hj (by rw [hj']), ?_⟩
    simp only [hj, decide_false]
    exact ⟨_, rfl⟩

end Cut

theorem short_throws {file : List Byte} (h : file.length < 33) (N : Nat) : (∃ m, Player.open' file = .throw m) ∧ ∃ m, Player.openFix file N = .throw m := by
  obtain ⟨m, e⟩ := readHeader_short (tr := []) h
  have h0 : (Stream.ofFile file).seek 0 = ⟨file, 0, false, []⟩ := rfl
  constructor
  · unfold Player.open'
    rw [h0, e]
    exact ⟨m, rfl⟩
  · unfold Player.openFix
    rw [h0, e]
    by_cases hN : N > 0
    · simp only [hN, decide_true, Outcome.require_true, Outcome.ok_bind, Outcome.throw_bind]
      exact ⟨m, rfl⟩
    · simp only [hN, decide_false]
      exact ⟨_, rfl⟩

theorem u64_number {N step n : Nat} (h : Fits64 N step n) : n < 2 ^ 64 := by
  have h1 := h.size
  have : n ≤ n * frameLength N := Nat.le_mul_of_pos_right _ (frameLength_pos N)
  omega

theorem leVal_number {N step n : Nat} (h : Fits64 N step n) : leVal (leBytes 8 n) = n := by
  rw [leVal_leBytes, Nat.mod_eq_of_lt]
  have := u64_number h
  norm_num at this ⊢
  exact this

/-- A closed file is a whole one. -/
theorem content_cut {A : Arith} {N step : Nat} {l : List Snapshot} (hf : Fits64 N step l.length) (hl : ∀ x ∈ l, Recordable A N x) :
    Cut A N step l (l.length * frameLength N) (leBytes 8 l.length) (content A N step l.length l) where
  fits := hf
  frames := hl
  bytes := leBytes_length _ _
  number := (leVal_number hf).le
  cut := le_rfl
  eq := by
    unfold content
    rw [← body_length hl, List.take_length]

/-- The first session. -/
theorem session_create {A : Arith} {N step : Nat} {l : List Snapshot} (hf : Fits64 N step l.length) (hl : ∀ x ∈ l, Recordable A N x) :
    session A [] N step false l = .ok ⟨⟨content A N step l.length l, 33, false,
      places 0 (content A N step 0 l) ++ places 0 (rawHeader N step (leBytes 8 l.length))⟩, false, l.length, step, N⟩ := by
  unfold session
  rw [make_create hf.molecules_pos hf.step_pos]
  simp only [Outcome.ok_bind]
  rw [recordAll_ok ⟨rfl, rfl, (rawHeader_length (leBytes_length _ _)).symm⟩ hl hf.step_pos (by simp only [Nat.zero_add]; exact hf.cycles)]
  simp only [Outcome.ok_bind, Nat.zero_add, Outcome.pure_eq]
  rw [write_end rfl _ (rawHeader_length (leBytes_length _ _)).symm]
  simp only
  rw [← places_append_zero]
  exact congrArg Outcome.ok close_ok
where
  places_append_zero : ∀ {a b : List Byte}, places 0 (a ++ b) = places 0 a ++ places a.length b := by
    intro a b
    rw [places_append, Nat.zero_add]

/-- Further sessions. -/
theorem session_append {A : Arith} {N step : Nat} {l l' : List Snapshot} (hf : Fits64 N step (l ++ l').length)
    (hl : ∀ x ∈ l ++ l', Recordable A N x) :
    session A (content A N step l.length l) N step true l' = .ok ⟨⟨content A N step (l ++ l').length (l ++ l'), 33, false,
      places (content A N step l.length l).length (l'.flatMap (frameBytes A)) ++ places 0 (rawHeader N step (leBytes 8 (l ++ l').length))⟩,
      false, (l ++ l').length, step, N⟩ := by
  have hfl : Fits64 N step l.length := Fits64.mono hf (by rw [List.length_append]; exact Nat.le_add_right _ _)
  unfold session
  rw [make_append hfl fun x hx => hl x (List.mem_append_left _ hx)]
  simp only [Outcome.ok_bind]
  rw [recordAll_ok ⟨rfl, rfl, rfl⟩ (fun x hx => hl x (List.mem_append_right _ hx)) hf.step_pos
    (by simp only; rw [← List.length_append]; exact hf.cycles)]
  simp only [Outcome.ok_bind, Outcome.pure_eq]
  rw [write_end rfl _ rfl, ← List.length_append]
  have e : content A N step l.length l ++ l'.flatMap (frameBytes A) = content A N step l.length (l ++ l') := by
    unfold content
    rw [List.flatMap_append, List.append_assoc]
  simp only [List.nil_append]
  rw [e]
  exact congrArg Outcome.ok close_ok

theorem sessions_append {A : Arith} {N step : Nat} : ∀ {ls : List (List Snapshot)} {l : List Snapshot}, Fits64 N step (l ++ ls.flatten).length →
    (∀ x ∈ l ++ ls.flatten, Recordable A N x) →
    sessions A N step (content A N step l.length l) true ls = .ok (content A N step (l ++ ls.flatten).length (l ++ ls.flatten))
  | [], l, _, _ => by simp [sessions]
  | l' :: ls, l, hf, hl => by
    rw [List.flatten_cons, ← List.append_assoc] at hf hl ⊢
    simp only [sessions]
    rw [session_append (Fits64.mono hf (by rw [List.length_append (as := l ++ l')]; exact Nat.le_add_right _ _))
      (fun x hx => hl x (List.mem_append_left _ hx))]
    simp only [Outcome.ok_bind]
    exact sessions_append hf hl

theorem sessions_ok {A : Arith} {N step : Nat} {l : List Snapshot} {ls : List (List Snapshot)} (hf : Fits64 N step (l :: ls).flatten.length)
    (hl : ∀ x ∈ (l :: ls).flatten, Recordable A N x) :
    sessions A N step [] false (l :: ls) = .ok (content A N step (l :: ls).flatten.length (l :: ls).flatten) := by
  rw [List.flatten_cons] at hf hl ⊢
  simp only [sessions]
  rw [session_create (Fits64.mono hf (by rw [List.length_append]; exact Nat.le_add_right _ _)) fun x hx => hl x (List.mem_append_left _ hx)]
  simp only [Outcome.ok_bind]
  exact sessions_append hf hl

/-- A header partly overwritten with one with another number of snapshots. -/
theorem header_mix {N step n old : Nat} (hn : n < 2 ^ 64) (ho : old ≤ n) (j : Nat) :
    ∃ ks : List Byte, ks.length = 8 ∧ leVal ks ≤ n ∧
      (rawHeader N step (leBytes 8 n)).take j ++ (rawHeader N step (leBytes 8 old)).drop j = rawHeader N step ks := by
  have hn' : n < 256 ^ 8 := by norm_num at hn ⊢; exact hn
  have ho' : old < 256 ^ 8 := lt_of_le_of_lt ho hn'
  have key : ∀ (pre a b post : List Byte), a.length = b.length →
      (pre ++ (a ++ post)).take j ++ (pre ++ (b ++ post)).drop j = pre ++ ((a.take (j - pre.length) ++ b.drop (j - pre.length)) ++ post) := by
    intro pre a b post hab
    rw [List.take_append, List.drop_append, List.take_append, List.drop_append]
    rcases le_or_gt j pre.length with h | h
    · have h0 : j - pre.length = 0 := by omega
      rw [h0]
      simp
      rw [← List.append_assoc, List.take_append_drop]
    · have h1 : pre.drop j = [] := List.drop_eq_nil_of_le h.le
      have h2 : pre.take j = pre := List.take_of_length_le h.le
      rw [h1, h2, List.nil_append, List.append_assoc]
      congr 1
      rcases le_or_gt (j - pre.length) a.length with h | h
      · have h0 : j - pre.length - a.length = 0 := by omega
        have h0' : j - pre.length - b.length = 0 := by omega
        rw [h0, h0']
        simp
      · have h3 : b.drop (j - pre.length) = [] := List.drop_eq_nil_of_le (by omega)
        rw [h3, hab]
        simp
  refine ⟨(leBytes 8 n).take (j - 17) ++ (leBytes 8 old).drop (j - 17), ?_, ?_, ?_⟩
  · rw [List.length_append, List.length_take, List.length_drop, leBytes_length, leBytes_length]
    omega
  · rw [leVal_append, leVal_take, leVal_drop _ _ _ ho', List.length_take, leBytes_length]
    rcases le_or_gt (j - 17) 8 with h | h
    · rw [min_eq_left h]
      calc n % 256 ^ (j - 17) + 256 ^ (j - 17) * (old / 256 ^ (j - 17)) ≤ n % 256 ^ (j - 17) + 256 ^ (j - 17) * (n / 256 ^ (j - 17)) :=
            Nat.add_le_add_left (Nat.mul_le_mul_left _ (Nat.div_le_div_right ho)) _
        _ = n := Nat.mod_add_div _ _
    · rw [min_eq_right h.le]
      have : old / 256 ^ (j - 17) = 0 := Nat.div_eq_of_lt (lt_of_lt_of_le ho' (Nat.pow_le_pow_right (by norm_num) h.le))
      rw [this, Nat.mul_zero, Nat.add_zero]
      exact Nat.mod_le _ _
  · have := key (magic ++ [1] ++ [1] ++ leBytes 8 N) (leBytes 8 n) (leBytes 8 old) (leBytes 8 step) (by rw [leBytes_length, leBytes_length])
    have hl : (magic ++ [1] ++ [1] ++ leBytes 8 N).length = 17 := by simp [leBytes_length, magic]
    rw [hl] at this
    unfold rawHeader
    rw [List.append_assoc (bs := leBytes 8 n), List.append_assoc (bs := leBytes 8 old), this]
    simp

theorem crash_header {A : Arith} {N step n old : Nat} {l : List Snapshot} (hn : n < 2 ^ 64) (ho : old ≤ n) (k : Nat) :
    ∃ ks : List Byte, ks.length = 8 ∧ leVal ks ≤ n ∧
      ((places 0 (rawHeader N step (leBytes 8 n))).take k).foldl putByte (content A N step old l) = rawHeader N step ks ++ l.flatMap (frameBytes A) := by
  obtain ⟨ks, h1, h2, h3⟩ := header_mix (N := N) (step := step) hn ho k
  refine ⟨ks, h1, h2, ?_⟩
  rw [places_take, foldl_putByte _ _ _ (Nat.zero_le _)]
  simp only [List.take_zero, List.nil_append, Nat.zero_add, List.length_take, rawHeader_length (leBytes_length 8 n)]
  rw [← h3]
  unfold content
  rcases le_or_gt k 33 with h | h
  · rw [min_eq_left h, List.drop_append_of_le_length (by rw [rawHeader_length (leBytes_length _ _)]; exact h), List.append_assoc]
  · rw [min_eq_right h.le, List.take_of_length_le (by rw [rawHeader_length (leBytes_length _ _)]; exact h.le),
      List.drop_eq_nil_of_le (as := rawHeader N step (leBytes 8 old)) (by rw [rawHeader_length (leBytes_length _ _)]; exact h.le), List.append_nil]
    congr 1

/-- What a crash leaves. -/
theorem crash_cut {A : Arith} {N step : Nat} {ls : List (List Snapshot)} {l : List Snapshot} (hf : Fits64 N step (ls.flatten ++ l).length)
    (hl : ∀ x ∈ ls.flatten ++ l, Recordable A N x) :
    ∃ file r, sessions A N step [] false ls = .ok file ∧ session A file N step (!ls.isEmpty) l = .ok r ∧ ∀ k,
      (crashed file r.stream.trace k).length = min (file.length + k) (33 + (ls.flatten ++ l).length * frameLength N) ∧
      (33 ≤ (crashed file r.stream.trace k).length → ∃ ks, Cut A N step (ls.flatten ++ l) ((crashed file r.stream.trace k).length - 33) ks
        (crashed file r.stream.trace k)) := by
  cases ls with
  | nil =>
    simp only [List.flatten_nil, List.nil_append] at hf hl ⊢
    refine ⟨[], _, rfl, session_create hf hl, fun k => ?_⟩
    have hlen : ∀ n, (content A N step n l).length = 33 + l.length * frameLength N := by
      intro n
      unfold content
      rw [List.length_append, rawHeader_length (leBytes_length _ _), body_length hl]
    unfold crashed
    simp only [List.length_nil, Nat.zero_add]
    rw [List.take_append, places_length, hlen, List.foldl_append]
    rcases le_or_gt k (33 + l.length * frameLength N) with h | h
    · have h0 : k - (33 + l.length * frameLength N) = 0 := by omega
      rw [h0, List.take_zero, List.foldl_nil, places_take, foldl_putByte _ _ _ (Nat.zero_le _)]
      simp only [List.take_zero, List.nil_append, List.drop_nil, List.append_nil]
      have hk : ((content A N step 0 l).take k).length = k := by rw [List.length_take, hlen, min_eq_left h]
      rw [hk]
      refine ⟨(min_eq_left h).symm, fun h33 => ⟨leBytes 8 0, hf, hl, leBytes_length _ _, ?_, by omega, ?_⟩⟩
      · rw [leVal_leBytes]
        simp
      · unfold content
        rw [List.take_append, rawHeader_length (leBytes_length _ _), List.take_of_length_le (by rw [rawHeader_length (leBytes_length _ _)]; exact h33)]
    · rw [List.take_of_length_le (by rw [places_length, hlen]; exact h.le), foldl_putByte _ _ _ (Nat.zero_le _)]
      simp only [List.take_zero, List.nil_append, List.drop_nil, List.append_nil]
      obtain ⟨ks, h1, h2, h3⟩ := crash_header (A := A) (N := N) (step := step) (l := l) (u64_number hf) (Nat.zero_le l.length) (k - (33 + l.length * frameLength N))
      rw [h3]
      have hk : (rawHeader N step ks ++ l.flatMap (frameBytes A)).length = 33 + l.length * frameLength N := by
        rw [List.length_append, rawHeader_length h1, body_length hl]
      rw [hk]
      refine ⟨(min_eq_right h.le).symm, fun h33 => ⟨ks, hf, hl, h1, h2, by omega, ?_⟩⟩
      rw [List.take_of_length_le (by rw [body_length hl]; omega)]
  | cons l0 ls =>
    have hl' : ∀ x ∈ (l0 :: ls).flatten, Recordable A N x := fun x hx => hl x (List.mem_append_left _ hx)
    refine ⟨_, _, sessions_ok (Fits64.mono hf (by rw [List.length_append]; exact Nat.le_add_right _ _)) hl', session_append hf hl, fun k => ?_⟩
    generalize (l0 :: ls).flatten = old at hf hl hl' ⊢
    have hlen : (content A N step old.length old).length = 33 + old.length * frameLength N := by
      unfold content
      rw [List.length_append, rawHeader_length (leBytes_length _ _), body_length hl']
    have hbody : (l.flatMap (frameBytes A)).length = l.length * frameLength N := body_length fun x hx => hl x (List.mem_append_right _ hx)
    have hmul : (old ++ l).length * frameLength N = old.length * frameLength N + l.length * frameLength N := by
      rw [List.length_append]
      ring
    unfold crashed
    simp only
    rw [List.take_append, places_length, hbody, List.foldl_append]
    rcases le_or_gt k (l.length * frameLength N) with h | h
    · have h0 : k - l.length * frameLength N = 0 := by omega
      rw [h0, List.take_zero, List.foldl_nil, places_take, foldl_putByte _ _ _ le_rfl, List.take_length]
      rw [List.drop_eq_nil_of_le (Nat.le_add_right _ _), List.append_nil]
      have hk : (content A N step old.length old ++ (l.flatMap (frameBytes A)).take k).length = 33 + old.length * frameLength N + k := by
        rw [List.length_append, hlen, List.length_take, hbody, min_eq_left h]
      rw [hk, hlen]
      refine ⟨?_, fun h33 => ⟨leBytes 8 old.length, hf, hl, leBytes_length _ _, ?_, by omega, ?_⟩⟩
      · rw [min_eq_left (by omega)]
      · rw [leVal_number (Fits64.mono hf (by rw [List.length_append]; exact Nat.le_add_right _ _)), List.length_append]
        exact Nat.le_add_right _ _
      · unfold content
        rw [List.flatMap_append, List.take_append, body_length hl', List.append_assoc]
        rw [List.take_of_length_le (l := old.flatMap (frameBytes A)) (by rw [body_length hl']; omega)]
        congr 3
        omega
    · rw [List.take_of_length_le (by rw [places_length, hbody]; exact h.le), foldl_putByte _ _ _ le_rfl, List.take_length]
      rw [List.drop_eq_nil_of_le (Nat.le_add_right _ _), List.append_nil]
      have e : content A N step old.length old ++ l.flatMap (frameBytes A) = content A N step old.length (old ++ l) := by
        unfold content
        rw [List.flatMap_append, List.append_assoc]
      rw [e]
      obtain ⟨ks, h1, h2, h3⟩ := crash_header (A := A) (N := N) (step := step) (l := old ++ l) (n := (old ++ l).length) (old := old.length) (u64_number hf)
        (by rw [List.length_append]; exact Nat.le_add_right _ _) (k - l.length * frameLength N)
      rw [h3]
      have hk : (rawHeader N step ks ++ (old ++ l).flatMap (frameBytes A)).length = 33 + (old ++ l).length * frameLength N := by
        rw [List.length_append, rawHeader_length h1, body_length hl]
      rw [hk, hlen]
      refine ⟨(min_eq_right (by omega)).symm, fun h33 => ⟨ks, hf, hl, h1, h2, by omega, ?_⟩⟩
      rw [List.take_of_length_le (by rw [body_length hl]; omega)]

end Traj

end Rampack
