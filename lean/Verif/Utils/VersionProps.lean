import Verif.Utils.StringsProps
/-
C48: versions.
-/
namespace Rampack

open Spec Utils

namespace Version

/-- The number which is read. -/
def value (neg : Bool) (d : Text) : Nat := if neg then (2 ^ 64 - textNat d) % 2 ^ 64 else textNat d

theorem stoul_ok {sign d : Text} {neg : Bool} (hs : sign = [] ∧ neg = false ∨ sign = ['+'] ∧ neg = false ∨ sign = ['-'] ∧ neg = true) (hd : d ≠ []) (hc : ∀ c ∈ d, isDec c = true) :
    stoul (sign ++ d) = if 2 ^ 64 ≤ textNat d then .throw "std::out_of_range" else .ok (value neg d, (sign ++ d).length) := by
  obtain ⟨c, d', rfl⟩ := List.exists_cons_of_ne_nil hd
  have hc0 := hc c (by simp)
  have hsp := dec_not_space hc0
  have hm : (c == '-') = false := TextIn.dec_ne hc0 (by decide)
  have hp : (c == '+') = false := TextIn.dec_ne hc0 (by decide)
  have ht : List.takeWhile isDec (c :: d') = c :: d' := List.takeWhile_eq_self_iff.mpr hc
  have hm' : c ≠ '-' := by simpa using hm
  have hp' : c ≠ '+' := by simpa using hp
  rcases hs with ⟨rfl, rfl⟩ | ⟨rfl, rfl⟩ | ⟨rfl, rfl⟩
  · have hw : List.dropWhile isSpace ([] ++ c :: d') = c :: d' := by
      rw [List.nil_append, List.dropWhile_cons_of_neg (by simp [hsp])]
    unfold stoul value
    simp only [hw, List.head?_cons]
    simp [hm', hp', ht]
  · have hw : List.dropWhile isSpace (['+'] ++ c :: d') = '+' :: c :: d' := by
      rw [List.singleton_append, List.dropWhile_cons_of_neg (by decide)]
    unfold stoul value
    simp only [hw, List.head?_cons]
    simp [ht]
  · have hw : List.dropWhile isSpace (['-'] ++ c :: d') = '-' :: c :: d' := by
      rw [List.singleton_append, List.dropWhile_cons_of_neg (by decide)]
    unfold stoul value
    simp only [hw, List.head?_cons]
    simp [ht]

theorem stoul_inv {t : Text} (h0 : ∀ c ∈ t.head?, isSpace c = false) {n : Nat} (h : stoul t = .ok (n, t.length)) :
    ∃ sign d neg, (sign = [] ∧ neg = false ∨ sign = ['+'] ∧ neg = false ∨ sign = ['-'] ∧ neg = true) ∧ d ≠ [] ∧ (∀ c ∈ d, isDec c = true) ∧ t = sign ++ d ∧ textNat d < 2 ^ 64 ∧ n = value neg d := by
  have hw : t.dropWhile isSpace = t := ltrim_fix h0
  unfold stoul at h
  simp only [hw] at h
  obtain ⟨sign, u, neg, hs, ht, hneg, hu⟩ : ∃ sign u neg, (sign = [] ∧ neg = false ∨ sign = ['+'] ∧ neg = false ∨ sign = ['-'] ∧ neg = true) ∧ t = sign ++ u ∧
      (t.head? == some '-') = neg ∧ (if (t.head? == some '-' || t.head? == some '+') = true then t.tail else t) = u := by
    cases t with
    | nil => exact ⟨[], [], false, Or.inl ⟨rfl, rfl⟩, rfl, rfl, rfl⟩
    | cons c t =>
      by_cases h1 : c = '-'
      · exact ⟨['-'], t, true, Or.inr (Or.inr ⟨rfl, rfl⟩), by rw [h1]; rfl, by simp [h1], by simp [h1]⟩
      · by_cases h2 : c = '+'
        · exact ⟨['+'], t, false, Or.inr (Or.inl ⟨rfl, rfl⟩), by rw [h2]; rfl, by simp [h2], by simp [h2]⟩
        · exact ⟨[], c :: t, false, Or.inl ⟨rfl, rfl⟩, rfl, by simp [h1], by simp [h1, h2]⟩
  rw [hneg] at h hu
  rw [hu] at h
  split at h
  · cases h
  · split at h
    · cases h
    · rename_i hd hlt
      obtain ⟨h1, h2⟩ := Prod.mk.inj (Outcome.ok_inj.mp h)
      have hle : (u.takeWhile isDec).length ≤ u.length := (List.takeWhile_sublist _).length_le
      have hul : u.length ≤ t.length := by rw [ht]; simp
      have hd' : u.takeWhile isDec ≠ [] := by simpa using hd
      have hdl := List.length_pos_iff.mpr hd'
      have hpre := List.takeWhile_prefix isDec (l := u)
      have hself : u.takeWhile isDec = u := hpre.eq_of_length (by omega)
      rw [hself] at h1 hlt hd'
      exact ⟨sign, u, neg, hs, hd', List.takeWhile_eq_self_iff.mp hself, ht, by omega, h1.symm⟩

theorem parseToken_iff (t : Text) (n : Nat) : parseToken t = .ok n ↔ ∃ neg d, VersionToken t neg d ∧ textNat d < 2 ^ 64 ∧ n = value neg d := by
  constructor
  · intro h
    unfold parseToken at h
    obtain ⟨-, -, h⟩ := Outcome.bind_eq_ok.mp h
    obtain ⟨⟨m, idx⟩, h1, h⟩ := Outcome.bind_eq_ok.mp h
    obtain ⟨u, h2, h⟩ := Outcome.bind_eq_ok.mp h
    obtain rfl := Outcome.ok_inj.mp h
    have h3 := of_decide_eq_true (Outcome.require_eq_ok.mp h2)
    rw [h3] at h1
    obtain ⟨a, b, ha, hb, e, hh, hl⟩ := trim_ok t
    obtain ⟨sign, d, neg, k1, k2, k3, k4, k5, k6⟩ := stoul_inv hh h1
    exact ⟨neg, d, ⟨a, b, sign, ha, hb, k1, k2, k3, by rw [k4] at e; rw [e]; simp⟩, k5, k6⟩
  · rintro ⟨neg, d, ⟨a, b, sign, ha, hb, hs, hd, hc, rfl⟩, hlt, rfl⟩
    have htrim : trim (a ++ sign ++ d ++ b) = sign ++ d := by
      rw [List.append_assoc a]
      apply trim_eq ha hb
      · intro c h
        rcases hs with ⟨rfl, -⟩ | ⟨rfl, -⟩ | ⟨rfl, -⟩
        · exact dec_not_space (hc c (List.mem_of_mem_head? h))
        · simp at h; rw [← h]; decide
        · simp at h; rw [← h]; decide
      · intro c h
        rw [List.getLast?_append] at h
        cases hg : d.getLast? with
        | none => exact absurd (List.getLast?_eq_none_iff.mp hg) hd
        | some x =>
          rw [hg] at h
          obtain rfl : x = c := by simpa using h
          exact dec_not_space (hc x (List.mem_of_getLast? hg))
    unfold parseToken
    rw [htrim, decide_eq_true (by simp [hd]), Outcome.require_true, Outcome.ok_bind, stoul_ok hs hd hc, if_neg (by omega), Outcome.ok_bind]
    simp

theorem parseToken_total (t : Text) : (∃ n, parseToken t = .ok n) ∨ ∃ m, parseToken t = .throw m := by
  unfold parseToken Outcome.require stoul
  dsimp only
  split_ifs <;> simp <;> split_ifs <;> simp

theorem forall₂_mem {α β : Type} {R : α → β → Prop} {l : List α} {m : List β} (h : List.Forall₂ R l m) {x : α} (hx : x ∈ l) : ∃ y, R x y := by
  induction h with
  | nil => cases hx
  | @cons a b l m h1 h2 ih =>
    rcases List.mem_cons.mp hx with rfl | hx
    · exact ⟨b, h1⟩
    · exact ih hx

end Version

/-- C48: versions are ordered lexicographically, all the operators agree with this order, and it is a total one. -/
theorem C48_order (a b c : Version) :
    (Version.lt a b = true ↔ a.major < b.major ∨ a.major = b.major ∧ (a.minor < b.minor ∨ a.minor = b.minor ∧ a.patch < b.patch)) ∧
    (Version.eq a b = true ↔ a = b) ∧ (Version.ne a b = true ↔ a ≠ b) ∧
    (Version.gt a b = true ↔ Version.lt b a = true) ∧
    (Version.le a b = true ↔ Version.lt a b = true ∨ a = b) ∧
    (Version.ge a b = true ↔ Version.gt a b = true ∨ a = b) ∧
    (Version.lt a b = true → Version.lt b c = true → Version.lt a c = true) ∧
    Version.lt a a = false ∧
    (Version.lt a b = true ∨ a = b ∨ Version.lt b a = true) := by
  have key : ∀ a b : Version, Version.lt a b = true ↔ a.major < b.major ∨ a.major = b.major ∧ (a.minor < b.minor ∨ a.minor = b.minor ∧ a.patch < b.patch) := by
    intro a b
    unfold Version.lt
    simp
    omega
  have heq : ∀ a b : Version, Version.eq a b = true ↔ a = b := by
    intro a b
    unfold Version.eq
    rw [Version.ext_iff]
    simp
  have hle : ∀ a b : Version, Version.lt a b = false ↔ ¬ (Version.lt a b = true) := by simp
  refine ⟨key a b, heq a b, ?_, Iff.rfl, ?_, ?_, ?_, ?_, ?_⟩
  · unfold Version.ne
    rw [Bool.not_eq_true', ← Bool.not_eq_true, heq, eq_comm]
  · unfold Version.le
    rw [Bool.not_eq_true', hle, key, key, Version.ext_iff]
    omega
  · unfold Version.ge Version.gt
    rw [Bool.not_eq_true', hle, key, key, Version.ext_iff]
    omega
  · rw [key, key, key]
    omega
  · rw [hle, key]
    omega
  · rw [key, key, Version.ext_iff]
    omega

/-- C48: exactly the strings of one to three numbers separated by points are accepted; a number may have white space around it and a sign before it, and has to fit in 64 bits. Missing numbers are zeros. All
other strings are refused. -/
theorem C48_parse (s : Text) :
    (∀ v, Version.parse s = .ok v ↔ ∃ (tokens : List Text) (ns : List Nat), 1 ≤ tokens.length ∧ tokens.length ≤ 3 ∧ s = joined ['.'] tokens ∧
      List.Forall₂ (fun t n => ∃ neg d, VersionToken t neg d ∧ textNat d < 2 ^ 64 ∧ n = if neg then (2 ^ 64 - textNat d) % 2 ^ 64 else textNat d) tokens ns ∧
      v = ⟨ns.getD 0 0, ns.getD 1 0, ns.getD 2 0⟩) ∧
    ((∃ v, Version.parse s = .ok v) ∨ ∃ msg, Version.parse s = .throw msg) := by
  constructor
  · intro v
    constructor
    · intro h
      have hs : s = joined ['.'] (explode s '.') := by
        rw [← (C50_join_split _).1, (C50_split_join s '.').1]
      unfold Version.parse at h
      match ht : explode s '.' with
      | [] => rw [ht] at h; cases h
      | [a] =>
        rw [ht] at h hs
        simp only [Version.ofTokens] at h
        obtain ⟨x, hx, h⟩ := Outcome.bind_eq_ok.mp h
        obtain rfl := Outcome.ok_inj.mp h
        refine ⟨[a], [x], by simp, by simp, hs, .cons ((Version.parseToken_iff _ _).mp hx) .nil, rfl⟩
      | [a, b] =>
        rw [ht] at h hs
        simp only [Version.ofTokens] at h
        obtain ⟨y, hy, h⟩ := Outcome.bind_eq_ok.mp h
        obtain ⟨x, hx, h⟩ := Outcome.bind_eq_ok.mp h
        obtain rfl := Outcome.ok_inj.mp h
        exact ⟨[a, b], [x, y], by simp, by simp, hs, .cons ((Version.parseToken_iff _ _).mp hx) (.cons ((Version.parseToken_iff _ _).mp hy) .nil), rfl⟩
      | [a, b, c] =>
        rw [ht] at h hs
        simp only [Version.ofTokens] at h
        obtain ⟨z, hz, h⟩ := Outcome.bind_eq_ok.mp h
        obtain ⟨y, hy, h⟩ := Outcome.bind_eq_ok.mp h
        obtain ⟨x, hx, h⟩ := Outcome.bind_eq_ok.mp h
        obtain rfl := Outcome.ok_inj.mp h
        exact ⟨[a, b, c], [x, y, z], by simp, by simp, hs,
          .cons ((Version.parseToken_iff _ _).mp hx) (.cons ((Version.parseToken_iff _ _).mp hy) (.cons ((Version.parseToken_iff _ _).mp hz) .nil)), rfl⟩
      | a :: b :: c :: d :: l => rw [ht] at h; cases h
    · rintro ⟨tokens, ns, h1, h3, rfl, hf, rfl⟩
      have htok : ∀ t ∈ tokens, '.' ∉ t ∧ t ≠ [] := by
        intro t ht
        obtain ⟨n, neg, d, ⟨a, b, sign, ha, hb, hs, hd, hc, rfl⟩, -⟩ := Version.forall₂_mem hf ht
        refine ⟨?_, by simp [hd]⟩
        simp only [List.mem_append, not_or]
        refine ⟨⟨⟨fun h => ?_, ?_⟩, fun h => ?_⟩, fun h => ?_⟩
        · exact absurd (ha _ h) (by decide)
        · rcases hs with ⟨rfl, -⟩ | ⟨rfl, -⟩ | ⟨rfl, -⟩ <;> decide
        · exact absurd (hc _ h) (by decide)
        · exact absurd (hb _ h) (by decide)
      have hex : explode (joined ['.'] tokens) '.' = tokens := by
        rw [← (C50_join_split tokens).1]
        refine (C50_join_split tokens).2 '.' (fun x hx => (htok x hx).1) ?_
        rintro rfl
        exact (htok [] (by simp)).2 rfl
      unfold Version.parse
      rw [hex]
      clear hex htok
      match tokens, ns, hf, h1, h3 with
      | [a], [x], .cons hx .nil, _, _ =>
        simp only [Version.ofTokens]
        rw [(Version.parseToken_iff _ _).mpr hx]
        rfl
      | [a, b], [x, y], .cons hx (.cons hy .nil), _, _ =>
        simp only [Version.ofTokens]
        rw [(Version.parseToken_iff _ _).mpr hx, (Version.parseToken_iff _ _).mpr hy]
        rfl
      | [a, b, c], [x, y, z], .cons hx (.cons hy (.cons hz .nil)), _, _ =>
        simp only [Version.ofTokens]
        rw [(Version.parseToken_iff _ _).mpr hx, (Version.parseToken_iff _ _).mpr hy, (Version.parseToken_iff _ _).mpr hz]
        rfl
      | [], _, _, h1, _ => simp at h1
      | _ :: _ :: _ :: _ :: _, _, _, _, h3 => simp at h3; omega
  · unfold Version.parse
    match explode s '.' with
    | [] => exact Or.inr ⟨_, rfl⟩
    | [a] =>
      simp only [Version.ofTokens]
      rcases Version.parseToken_total a with ⟨x, hx⟩ | ⟨m, hx⟩ <;> rw [hx] <;> simp
    | [a, b] =>
      simp only [Version.ofTokens]
      rcases Version.parseToken_total a with ⟨x, hx⟩ | ⟨m, hx⟩ <;> rcases Version.parseToken_total b with ⟨y, hy⟩ | ⟨m', hy⟩ <;> rw [hx, hy] <;> simp
    | [a, b, c] =>
      simp only [Version.ofTokens]
      rcases Version.parseToken_total a with ⟨x, hx⟩ | ⟨m, hx⟩ <;> rcases Version.parseToken_total b with ⟨y, hy⟩ | ⟨m', hy⟩ <;> rcases Version.parseToken_total c with ⟨z, hz⟩ | ⟨m', hz⟩ <;>
        rw [hx, hy, hz] <;> simp
    | a :: b :: c :: d :: l => exact Or.inr ⟨_, rfl⟩

/-- C48: printing and parsing gives the version back. -/
theorem C48_roundtrip (v : Version) (h1 : v.major < 2 ^ 64) (h2 : v.minor < 2 ^ 64) (h3 : v.patch < 2 ^ 64) : Version.parse v.str = .ok v := by
  have tok : ∀ n, n < 2 ^ 64 → ∃ neg d, VersionToken (natText n) neg d ∧ textNat d < 2 ^ 64 ∧ n = if neg then (2 ^ 64 - textNat d) % 2 ^ 64 else textNat d := by
    intro n hn
    refine ⟨false, natText n, ⟨[], [], [], by simp [Blank], by simp [Blank], Or.inl ⟨rfl, rfl⟩, natText_ne n, natText_dec n, by simp⟩, by rw [textNat_natText]; exact hn, ?_⟩
    rw [textNat_natText]
    rfl
  refine ((C48_parse _).1 v).mpr ⟨[natText v.major, natText v.minor, natText v.patch], [v.major, v.minor, v.patch], by simp, by simp, ?_, ?_, rfl⟩
  · unfold Version.str
    simp [joined]
  · exact .cons (tok _ h1) (.cons (tok _ h2) (.cons (tok _ h3) .nil))

/-- C48 fails for negative numbers: they are taken modulo 2^64, so that version "-1" is newer than all others. -/
theorem C48_negative_violated : Version.parse "-1".toList = .ok ⟨2 ^ 64 - 1, 0, 0⟩ ∧
    ∀ v : Version, v.major < 2 ^ 64 - 1 → Version.lt v ⟨2 ^ 64 - 1, 0, 0⟩ = true := by
  constructor
  · refine ((C48_parse _).1 _).mpr ⟨["-1".toList], [2 ^ 64 - 1], by simp, by simp, rfl, .cons ⟨true, ['1'], ⟨[], [], ['-'], by simp [Blank], by simp [Blank], by simp, by simp, by decide, rfl⟩, by decide, by decide⟩ .nil, rfl⟩
  · intro v hv
    exact ((C48_order v ⟨2 ^ 64 - 1, 0, 0⟩ v).1).mpr (Or.inl hv)

/-- Non-vacuity. -/
example : Version.parse " 1.12".toList = .ok ⟨1, 12, 0⟩ :=
  ((C48_parse _).1 _).mpr ⟨[" 1".toList, "12".toList], [1, 12], by simp, by simp, rfl,
    .cons ⟨false, ['1'], ⟨[' '], [], [], by simp [Blank]; decide, by simp [Blank], by simp, by simp, by decide, rfl⟩, by decide, by decide⟩
    (.cons ⟨false, ['1', '2'], ⟨[], [], [], by simp [Blank], by simp [Blank], by simp, by simp, by decide, rfl⟩, by decide, by decide⟩ .nil), rfl⟩

end Rampack
