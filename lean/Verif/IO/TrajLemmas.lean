import Verif.IO.TrajSpec
import Verif.IO.BytesLemmas
/-
Lemmas about trajectories.
-/
namespace Rampack

namespace Traj

open Rampack.Spec Rampack.Stream

theorem wordBytes_length (w : Word) : (wordBytes w).length = 8 := leBytes_length _ _

theorem bytesWord_wordBytes (w : Word) : bytesWord (wordBytes w) = w := by
  unfold bytesWord wordBytes
  rw [leVal_leBytes, Nat.mod_eq_of_lt (by have := w.isLt; norm_num at this ⊢; exact this)]
  simp

theorem vecBytes_length (v : Vec3 Word) : (vecBytes v).length = 24 := by simp [vecBytes, wordBytes_length]

theorem matBytes_length (m : MatW) : (matBytes m).length = 72 := by simp [matBytes, vecBytes_length]

theorem bytesVec_vecBytes (v : Vec3 Word) : bytesVec (vecBytes v) = v := by
  obtain ⟨x, y, z⟩ := v
  unfold bytesVec vecBytes
  simp only [List.append_assoc]
  have hx := wordBytes_length x
  have hy := wordBytes_length y
  have hz := wordBytes_length z
  have e1 : (wordBytes x ++ (wordBytes y ++ wordBytes z)).take 8 = wordBytes x := by rw [← hx]; exact List.take_left
  have e2 : (wordBytes x ++ (wordBytes y ++ wordBytes z)).drop 8 = wordBytes y ++ wordBytes z := by rw [← hx]; exact List.drop_left
  have e3 : (wordBytes x ++ (wordBytes y ++ wordBytes z)).drop 16 = wordBytes z := by
    rw [show (16 : Nat) = 8 + 8 from rfl, ← List.drop_drop, e2]
    rw [← hy]
    exact List.drop_left
  have e4 : (wordBytes y ++ wordBytes z).take 8 = wordBytes y := by rw [← hy]; exact List.take_left
  have e5 : (wordBytes z).take 8 = wordBytes z := by rw [← hz]; exact List.take_length
  rw [e1, e2, e3, e4, e5]
  simp only [bytesWord_wordBytes]

theorem bytesMat_matBytes (m : MatW) : bytesMat (matBytes m) = m := by
  obtain ⟨x, y, z⟩ := m
  unfold bytesMat matBytes
  simp only [List.append_assoc]
  have hx := vecBytes_length x
  have hy := vecBytes_length y
  have hz := vecBytes_length z
  have e1 : (vecBytes x ++ (vecBytes y ++ vecBytes z)).take 24 = vecBytes x := by rw [← hx]; exact List.take_left
  have e2 : (vecBytes x ++ (vecBytes y ++ vecBytes z)).drop 24 = vecBytes y ++ vecBytes z := by rw [← hx]; exact List.drop_left
  have e3 : (vecBytes x ++ (vecBytes y ++ vecBytes z)).drop 48 = vecBytes z := by
    rw [show (48 : Nat) = 24 + 24 from rfl, ← List.drop_drop, e2]
    rw [← hy]
    exact List.drop_left
  have e4 : (vecBytes y ++ vecBytes z).take 24 = vecBytes y := by rw [← hy]; exact List.take_left
  have e5 : (vecBytes z).take 24 = vecBytes z := by rw [← hz]; exact List.take_length
  rw [e1, e2, e3, e4, e5]
  simp only [bytesVec_vecBytes]

theorem readOr_ok {file a l b : List Byte} {tr : List (Nat × Byte)} (msg : String) (n : Nat) (h : file = a ++ l ++ b) (hn : l.length = n)
    {p : Nat} (hp : a.length = p) : readOr msg n ⟨file, p, false, tr⟩ = .ok (l, ⟨file, p + n, false, tr⟩) := by
  subst hn hp
  unfold readOr
  rw [read_ok h]

theorem readOr_throw {s : Stream} {msg : String} {n : Nat} (h : s.bytes.length < s.pos + n) : readOr msg n s = .throw msg := by
  unfold readOr
  have := read_fail h
  cases hr : s.read n with
  | mk a b =>
    rw [hr] at this
    simp only at this
    subst this
    rfl

/-- A header with the bytes of the number of snapshots given. -/
def rawHeader (N step : Nat) (ks : List Byte) : List Byte := magic ++ [1] ++ [1] ++ leBytes 8 N ++ ks ++ leBytes 8 step

theorem rawHeader_length {N step : Nat} {ks : List Byte} (h : ks.length = 8) : (rawHeader N step ks).length = 33 := by
  simp [rawHeader, leBytes_length, h, magic]

theorem headerBytes_raw (N k step : Nat) : headerBytes (Recorder.header N k step) = rawHeader N step (leBytes 8 k) := rfl

theorem readHeader_ok {N step : Nat} {ks rest : List Byte} {tr : List (Nat × Byte)} (hk : ks.length = 8) (hN : 0 < N) (hN' : N < 2 ^ 64)
    (hs : 0 < step) (hs' : step < 2 ^ 64) :
    readHeader ⟨rawHeader N step ks ++ rest, 0, false, tr⟩ =
      .ok (⟨1, 1, N, leVal ks, step⟩, ⟨rawHeader N step ks ++ rest, 33, false, tr⟩) := by
  have eN : leVal (leBytes 8 N) = N := by rw [leVal_leBytes, Nat.mod_eq_of_lt (by norm_num at hN' ⊢; exact hN')]
  have es : leVal (leBytes 8 step) = step := by rw [leVal_leBytes, Nat.mod_eq_of_lt (by norm_num at hs' ⊢; exact hs')]
  unfold readHeader
  rw [readOr_ok (a := []) (l := magic) (b := [1] ++ [1] ++ leBytes 8 N ++ ks ++ leBytes 8 step ++ rest) _ _
    (by simp [rawHeader]) (by rfl) (by rfl)]
  simp only [Outcome.ok_bind, decide_true, Outcome.require_true]
  rw [readOr_ok (a := magic) (l := [1]) (b := [1] ++ leBytes 8 N ++ ks ++ leBytes 8 step ++ rest) _ _
    (by simp [rawHeader]) (by rfl) (by rfl)]
  simp only [Outcome.ok_bind]
  rw [readOr_ok (a := magic ++ [1]) (l := [1]) (b := leBytes 8 N ++ ks ++ leBytes 8 step ++ rest) _ _
    (by simp [rawHeader]) (by rfl) (by rfl)]
  simp only [Outcome.ok_bind]
  rw [show leVal [(1 : Byte)] = 1 from rfl]
  simp only [decide_true, le_refl, Bool.and_self, Outcome.require_true, Outcome.ok_bind]
  rw [readOr_ok (a := magic ++ [1] ++ [1]) (l := leBytes 8 N) (b := ks ++ leBytes 8 step ++ rest) _ _
    (by simp [rawHeader]) (leBytes_length _ _) (by rfl)]
  simp only [Outcome.ok_bind]
  rw [readOr_ok (a := magic ++ [1] ++ [1] ++ leBytes 8 N) (l := ks) (b := leBytes 8 step ++ rest) _ _
    (by simp [rawHeader]) hk (by simp [leBytes_length, magic])]
  simp only [Outcome.ok_bind]
  rw [readOr_ok (a := magic ++ [1] ++ [1] ++ leBytes 8 N ++ ks) (l := leBytes 8 step) (b := rest) _ _
    (by simp [rawHeader]) (leBytes_length _ _) (by simp [leBytes_length, magic, hk])]
  simp only [Outcome.ok_bind, eN, es]
  unfold checkHeader
  rw [if_pos ⟨le_rfl, le_rfl⟩]
  simp [hN, hs]

/-- A file shorter than the header is refused. -/
theorem readHeader_short {file : List Byte} {tr : List (Nat × Byte)} (h : file.length < 33) : ∃ m, readHeader ⟨file, 0, false, tr⟩ = .throw m := by
  have key : ∀ (msg : String) (n p : Nat), p + n ≤ file.length → readOr msg n ⟨file, p, false, tr⟩ =
      .ok ((file.drop p).take n, ⟨file, p + n, false, tr⟩) := by
    intro msg n p hp
    unfold readOr Stream.read
    simp [hp]
  have req : ∀ (b : Bool) (msg : String) (f : Unit → Outcome (Header × Stream)), (∃ m, f () = .throw m) → ∃ m, (Outcome.require b msg >>= f) = .throw m := by
    intro b msg f hf
    cases b
    · exact ⟨msg, rfl⟩
    · exact hf
  unfold readHeader
  by_cases h1 : 0 + 7 ≤ file.length
  · rw [key _ _ _ h1]
    simp only [Outcome.ok_bind]
    apply req
    by_cases h2 : 0 + 7 + 1 ≤ file.length
    · rw [key _ _ _ h2]
      simp only [Outcome.ok_bind]
      by_cases h3 : 0 + 7 + 1 + 1 ≤ file.length
      · rw [key _ _ _ h3]
        simp only [Outcome.ok_bind]
        apply req
        by_cases h4 : 0 + 7 + 1 + 1 + 8 ≤ file.length
        · rw [key _ _ _ h4]
          simp only [Outcome.ok_bind]
          by_cases h5 : 0 + 7 + 1 + 1 + 8 + 8 ≤ file.length
          · rw [key _ _ _ h5]
            simp only [Outcome.ok_bind]
            rw [readOr_throw (by simp only; omega)]
            exact ⟨_, rfl⟩
          · rw [readOr_throw (by simp only; omega)]
            exact ⟨_, rfl⟩
        · rw [readOr_throw (by simp only; omega)]
          exact ⟨_, rfl⟩
      · rw [readOr_throw (by simp only; omega)]
        exact ⟨_, rfl⟩
    · rw [readOr_throw (by simp only; omega)]
      exact ⟨_, rfl⟩
  · rw [readOr_throw (by simp only; omega)]
    exact ⟨_, rfl⟩

/-- The bytes of the Euler angles of an orientation. -/
def angleBytes (A : Arith) (s : ShapeW) : List Byte := match A.angles s.rot with | .ok a => vecBytes a | _ => []

/-- The bytes of a snapshot. -/
def frameBytes (A : Arith) (x : Snapshot) : List Byte := matBytes x.box ++ x.shapes.flatMap fun s => vecBytes s.pos ++ angleBytes A s

theorem angleBytes_ok {A : Arith} {s : ShapeW} {a : Vec3 Word} (h : A.angles s.rot = .ok a) : angleBytes A s = vecBytes a := by
  unfold angleBytes
  rw [h]

theorem shapesBytes_length {A : Arith} : ∀ {l : List ShapeW}, (∀ s ∈ l, ∃ a, A.angles s.rot = .ok a) →
    (l.flatMap fun s => vecBytes s.pos ++ angleBytes A s).length = 48 * l.length
  | [], _ => rfl
  | s :: l, h => by
    obtain ⟨a, ha⟩ := h s (List.mem_cons_self ..)
    simp only [List.flatMap_cons, List.length_append, vecBytes_length, angleBytes_ok ha, List.length_cons,
      shapesBytes_length fun t ht => h t (List.mem_cons_of_mem _ ht)]
    ring

theorem frameBytes_length {A : Arith} {N : Nat} {x : Snapshot} (h : Recordable A N x) : (frameBytes A x).length = frameLength N := by
  unfold frameBytes frameLength
  rw [List.length_append, matBytes_length, shapesBytes_length h.rotations, h.size]

theorem body_length {A : Arith} {N : Nat} : ∀ {l : List Snapshot}, (∀ x ∈ l, Recordable A N x) →
    (l.flatMap (frameBytes A)).length = l.length * frameLength N
  | [], _ => by simp
  | x :: l, h => by
    rw [List.flatMap_cons, List.length_append, frameBytes_length (h x (List.mem_cons_self ..)), body_length fun y hy => h y (List.mem_cons_of_mem _ hy),
      List.length_cons]
    ring

theorem shapes_written {A : Arith} : ∀ {l : List ShapeW} {s : Stream}, (∀ x ∈ l, ∃ a, A.angles x.rot = .ok a) → s.fail = false →
    s.pos = s.bytes.length → l.foldlM (writeShape A) s = .ok (s.write (l.flatMap fun x => vecBytes x.pos ++ angleBytes A x))
  | [], s, _, hf, hp => by
    rw [write_end hf _ hp]
    simp only [List.foldlM_nil, List.flatMap_nil, List.append_nil, places]
    cases s
    simp only at hf hp
    subst hf hp
    rfl
  | x :: l, s, h, hf, hp => by
    obtain ⟨a, ha⟩ := h x (List.mem_cons_self ..)
    rw [List.foldlM_cons]
    have e : writeShape A s x = .ok (s.write (vecBytes x.pos ++ angleBytes A x)) := by
      unfold writeShape
      rw [ha, angleBytes_ok ha, ← write_write hf _ _ hp]
      rfl
    rw [e]
    simp only [Outcome.ok_bind]
    have hw := write_end hf (vecBytes x.pos ++ angleBytes A x) hp
    rw [shapes_written (fun y hy => h y (List.mem_cons_of_mem _ hy)) (by rw [hw]) (by rw [hw]), write_write hf _ _ hp, List.flatMap_cons]

/-- An open recorder at the end of its file. -/
structure Recorder.AtEnd (r : Recorder) : Prop where
  isOpen : r.isOpen = true
  fail : r.stream.fail = false
  pos : r.stream.pos = r.stream.bytes.length

theorem record_ok {A : Arith} {r : Recorder} (h : r.AtEnd) {x : Snapshot} (hx : Recordable A r.numParticles x) (hs : 0 < r.cycleStep)
    (hc : (r.numSnapshots + 1) * r.cycleStep < 2 ^ 64) :
    r.recordSnapshot A x (r.lastCycle + r.cycleStep) =
      .ok { r with stream := r.stream.write (frameBytes A x), numSnapshots := r.numSnapshots + 1 } := by
  have e : r.lastCycle + r.cycleStep = (r.numSnapshots + 1) * r.cycleStep := by
    unfold Recorder.lastCycle u64
    rw [Nat.mod_eq_of_lt (by nlinarith)]
    ring
  unfold Recorder.recordSnapshot
  rw [e]
  have h0 : 0 < (r.numSnapshots + 1) * r.cycleStep := Nat.mul_pos (Nat.succ_pos _) hs
  have hu : u64 ((r.numSnapshots + 1) * r.cycleStep) = (r.numSnapshots + 1) * r.cycleStep := Nat.mod_eq_of_lt hc
  have hw := write_end h.fail (matBytes x.box) h.pos
  simp only [h.isOpen, Outcome.require_true, Outcome.ok_bind, h0, hu, hx.size, gt_iff_lt, decide_true]
  unfold writeBox
  rw [shapes_written hx.rotations (by rw [hw]) (by rw [hw]), write_write h.fail _ _ h.pos]
  rfl

theorem recordAll_ok {A : Arith} : ∀ {l : List Snapshot} {r : Recorder}, r.AtEnd → (∀ x ∈ l, Recordable A r.numParticles x) → 0 < r.cycleStep →
    (r.numSnapshots + l.length) * r.cycleStep < 2 ^ 64 →
    recordAll A r l = .ok { r with stream := r.stream.write (l.flatMap (frameBytes A)), numSnapshots := r.numSnapshots + l.length }
  | [], r, h, _, _, _ => by
    simp only [recordAll, List.flatMap_nil, List.length_nil, Nat.add_zero]
    rw [write_end h.fail _ h.pos]
    obtain ⟨⟨b, p, f, t⟩, o, n, c, N⟩ := r
    have h1 := h.fail
    have h2 := h.pos
    simp only at h1 h2
    subst h1 h2
    simp [places]
  | x :: l, r, h, hx, hs, hc => by
    simp only [recordAll]
    simp only [List.length_cons] at hc
    rw [record_ok h (hx x (List.mem_cons_self ..)) hs (lt_of_le_of_lt (Nat.mul_le_mul_right _ (by omega)) hc)]
    simp only [Outcome.ok_bind]
    have hw := write_end h.fail (frameBytes A x) h.pos
    rw [recordAll_ok (r := { r with stream := r.stream.write (frameBytes A x), numSnapshots := r.numSnapshots + 1 })
      ⟨h.isOpen, by simp only; rw [hw], by simp only; rw [hw]⟩ (fun y hy => hx y (List.mem_cons_of_mem _ hy)) hs
      (by simp only; rw [show r.numSnapshots + 1 + l.length = r.numSnapshots + (l.length + 1) by ring]; exact hc)]
    simp only [List.flatMap_cons, List.length_cons]
    rw [write_write h.fail _ _ h.pos, show r.numSnapshots + 1 + l.length = r.numSnapshots + (l.length + 1) by ring]

/-- The whole file: a header and the bytes of frames. -/
def content (A : Arith) (N step k : Nat) (l : List Snapshot) : List Byte := rawHeader N step (leBytes 8 k) ++ l.flatMap (frameBytes A)

theorem snapshotSize_eq {h : Header} (hN : h.numParticles < 2 ^ 57) : snapshotSize h = frameLength h.numParticles := by
  unfold snapshotSize frameLength u64
  rw [Nat.mod_eq_of_lt (by omega)]
  ring

theorem snapshotOffset_eq {h : Header} {n : Nat} (hN : h.numParticles < 2 ^ 57) (hn : 33 + n * frameLength h.numParticles < 2 ^ 63) :
    snapshotOffset h n = ((33 + n * frameLength h.numParticles : Nat) : Int) := by
  unfold snapshotOffset toLong u64 headerSize
  rw [snapshotSize_eq hN, Nat.mod_eq_of_lt (by omega), if_pos (by omega)]

theorem make_create {N step : Nat} (hN : 0 < N) (hs : 0 < step) : Recorder.make [] N step false =
    .ok ⟨⟨rawHeader N step (leBytes 8 0), 33, false, places 0 (rawHeader N step (leBytes 8 0))⟩, true, 0, step, N⟩ := by
  unfold Recorder.make
  simp only [hN, hs, gt_iff_lt, decide_true, Outcome.require_true, Outcome.ok_bind, Bool.false_eq_true, if_false]
  unfold Recorder.create writeHeader
  have : (Stream.ofFile []).seekEnd = ⟨[], 0, false, []⟩ := rfl
  simp only [this]
  rw [write_end rfl _ rfl, headerBytes_raw]
  simp only [Stream.tell, Bool.false_eq_true, if_false, Nat.cast_zero, decide_true, Outcome.require_true, Outcome.ok_bind, Outcome.pure_eq, List.nil_append,
    List.length_nil, rawHeader_length (leBytes_length _ _)]

theorem make_append {A : Arith} {N step : Nat} {l : List Snapshot} (hf : Fits64 N step l.length) (hl : ∀ x ∈ l, Recordable A N x) :
    Recorder.make (content A N step l.length l) N step true =
      .ok ⟨⟨content A N step l.length l, (content A N step l.length l).length, false, []⟩, true, l.length, step, N⟩ := by
  have hN := hf.molecules_pos
  have hs := hf.step_pos
  have hsize := hf.size
  unfold headerLength at hsize
  have hlen : (content A N step l.length l).length = 33 + l.length * frameLength N := by
    unfold content
    rw [List.length_append, rawHeader_length (leBytes_length _ _), body_length hl]
  have hk : leVal (leBytes 8 l.length) = l.length := by
    rw [leVal_leBytes, Nat.mod_eq_of_lt]
    have : 0 < frameLength N := by unfold frameLength; omega
    have : l.length ≤ l.length * frameLength N := Nat.le_mul_of_pos_right _ this
    norm_num
    omega
  unfold Recorder.make
  simp only [hN, hs, gt_iff_lt, decide_true, Outcome.require_true, Outcome.ok_bind, if_true]
  unfold Recorder.append
  have h0 : (Stream.ofFile (content A N step l.length l)).seek 0 = ⟨rawHeader N step (leBytes 8 l.length) ++ l.flatMap (frameBytes A), 0, false, []⟩ := rfl
  rw [h0, readHeader_ok (leBytes_length _ _) hN (lt_trans hf.molecules_lt (by norm_num)) hs hf.step_lt]
  simp only [Outcome.ok_bind, decide_true, Bool.and_self, Outcome.require_true, hk]
  rw [snapshotOffset_eq (by exact hf.molecules_lt) (by exact hsize)]
  have h1 : (⟨rawHeader N step (leBytes 8 l.length) ++ l.flatMap (frameBytes A), 33, false, []⟩ : Stream).seekEnd =
    ⟨content A N step l.length l, (content A N step l.length l).length, false, []⟩ := rfl
  rw [h1]
  simp only [Stream.tell, Bool.false_eq_true, if_false, hlen, decide_true, Outcome.require_true, Outcome.ok_bind, Outcome.pure_eq]

/-- Closing writes the number of snapshots in the header. -/
theorem close_ok {A : Arith} {N step k n : Nat} {l : List Snapshot} {p : Nat} {tr : List (Nat × Byte)} :
    (⟨⟨content A N step k l, p, false, tr⟩, true, n, step, N⟩ : Recorder).close =
      ⟨⟨content A N step n l, 33, false, tr ++ places 0 (rawHeader N step (leBytes 8 n))⟩, false, n, step, N⟩ := by
  unfold Recorder.close
  simp only [Bool.not_true, Bool.false_eq_true, if_false]
  unfold writeHeader
  rw [headerBytes_raw]
  have : (⟨content A N step k l, p, false, tr⟩ : Stream).seek 0 = ⟨content A N step k l, 0, false, tr⟩ := rfl
  rw [this, write_bytes rfl _ (Nat.zero_le _)]
  simp only [List.take_zero, List.nil_append, Nat.zero_add, rawHeader_length (leBytes_length 8 n)]
  congr 2

theorem readShapes_ok {A : Arith} : ∀ {l : List ShapeW} {file a b : List Byte} {tr : List (Nat × Byte)} {p : Nat},
    (∀ s ∈ l, ∃ x, A.angles s.rot = .ok x) → file = a ++ (l.flatMap fun s => vecBytes s.pos ++ angleBytes A s) ++ b → a.length = p →
    Player.readShapes A l.length ⟨file, p, false, tr⟩ =
      .ok (l.map (readShapeBack A), ⟨file, p + 48 * l.length, false, tr⟩)
  | [], file, a, b, tr, p, _, _, _ => by simp [Player.readShapes]
  | s :: l, file, a, b, tr, p, h, hf, hp => by
    obtain ⟨x, hx⟩ := h s (List.mem_cons_self ..)
    rw [List.flatMap_cons, angleBytes_ok hx] at hf
    simp only [List.length_cons, Player.readShapes]
    unfold readShape
    rw [readOr_ok (a := a) (l := vecBytes s.pos) (b := vecBytes x ++ (l.flatMap fun s => vecBytes s.pos ++ angleBytes A s) ++ b) _ _
      (by rw [hf]; simp) (vecBytes_length _) hp]
    simp only [Outcome.ok_bind]
    rw [readOr_ok (a := a ++ vecBytes s.pos) (l := vecBytes x) (b := (l.flatMap fun s => vecBytes s.pos ++ angleBytes A s) ++ b) _ _
      (by rw [hf]; simp) (vecBytes_length _) (by simp [hp, vecBytes_length])]
    simp only [Outcome.ok_bind, Outcome.pure_eq]
    rw [readShapes_ok (a := a ++ vecBytes s.pos ++ vecBytes x) (b := b) (fun t ht => h t (List.mem_cons_of_mem _ ht)) (by rw [hf]; simp)
      (by simp [hp, vecBytes_length])]
    simp only [Outcome.ok_bind, List.map_cons, bytesVec_vecBytes, readShapeBack, hx]
    rw [show p + 24 + 24 + 48 * l.length = p + 48 * (l.length + 1) by ring]

end Traj

end Rampack
