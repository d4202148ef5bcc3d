import Verif.Model.Delaunay
import Mathlib.Data.List.Infix
import Mathlib.Data.List.Basic

/-!
# C145: one file for ParaView per CSV file
-/

namespace HV
namespace Delaunay

/-- Splitting a name off a path that ends with it. -/
theorem splitFirst_stem (s : Chars) (h : ¬ ".csv".toList <:+: s) : splitFirst ".csv".toList (s ++ ".csv".toList) = s := by
  induction s with
  | nil => decide
  | cons c s ih =>
    have hs : ¬ ".csv".toList <:+: s := fun hc => h (hc.trans (List.suffix_cons c s).isInfix)
    simp only [List.cons_append, splitFirst]
    rw [if_neg, ih hs]
    intro hp
    rw [List.isPrefixOf_iff_prefix] at hp
    obtain ⟨t, ht⟩ := hp
    change ['.', 'c', 's', 'v'] ++ t = c :: (s ++ ['.', 'c', 's', 'v']) at ht
    change ¬ ['.', 'c', 's', 'v'] <:+: c :: s at h
    rcases s with _ | ⟨c1, _ | ⟨c2, _ | ⟨c3, s⟩⟩⟩
    · simp at ht
    · simp at ht
    · simp at ht
    · simp only [List.cons_append, List.nil_append, List.cons.injEq] at ht
      obtain ⟨rfl, rfl, rfl, rfl, -⟩ := ht
      exact h ⟨[], s, by simp⟩

theorem dropWhile_append_of_all {p : Char → Bool} (a b : Chars) (h : ∀ c ∈ a, p c = true) : (a ++ b).dropWhile p = b.dropWhile p := by
  induction a with
  | nil => rfl
  | cons c a ih => simp [List.dropWhile_cons, h c (by simp), ih fun c hc => h c (by simp [hc])]

theorem takeWhile_append_of_all {p : Char → Bool} (a b : Chars) (h : ∀ c ∈ a, p c = true) : (a ++ b).takeWhile p = a ++ b.takeWhile p := by
  induction a with
  | nil => rfl
  | cons c a ih => simp [List.takeWhile_cons, h c (by simp), ih fun c hc => h c (by simp [hc])]

/-- The directory and the name of a path are got back. -/
theorem lastPart_join (d n : Chars) (hn : '/' ∉ n) : lastPart (join d n) = n := by
  have hh : n.head? ≠ some '/' := fun hc => hn (List.mem_of_mem_head? hc)
  have hr : ∀ c ∈ n.reverse, decide (c ≠ '/') = true := fun c hc => by
    simp only [decide_eq_true_eq]; rintro rfl; exact hn (by simpa using hc)
  unfold lastPart join
  rw [if_neg hh]
  split
  · next h1 =>
    rw [List.reverse_append, takeWhile_append_of_all _ _ hr]
    have : d.reverse.takeWhile (fun c => decide (c ≠ '/')) = [] := by
      rcases h1 with rfl | h1
      · rfl
      · rcases hd : d.reverse with _ | ⟨c, l⟩
        · rfl
        · have : c = '/' := by
            have := congrArg List.head? hd
            rw [List.head?_reverse, h1] at this
            simpa using this.symm
          simp [this]
    rw [this]
    simp
  · rw [show d ++ '/' :: n = (d ++ ['/']) ++ n by simp, List.reverse_append, takeWhile_append_of_all _ _ hr]
    simp

theorem dirname_join (d n : Chars) (hn : '/' ∉ n) (hd : d.getLast? ≠ some '/') : dirname (join d n) = d := by
  have hh : n.head? ≠ some '/' := fun hc => hn (List.mem_of_mem_head? hc)
  have hr : ∀ c ∈ n.reverse, decide (c ≠ '/') = true := fun c hc => by
    simp only [decide_eq_true_eq]; rintro rfl; exact hn (by simpa using hc)
  unfold dirname join
  rw [if_neg hh]
  rcases hd0 : d with _ | ⟨c0, l0⟩
  · simp only [true_or, if_true, List.nil_append]
    have := dropWhile_append_of_all n.reverse [] hr
    rw [List.append_nil] at this
    rw [this]
    rfl
  · have hj : ¬ (d = [] ∨ d.getLast? = some '/') := not_or.2 ⟨by simp [hd0], hd⟩
    rw [← hd0]
    simp only [if_neg hj]
    rw [show d ++ '/' :: n = (d ++ ['/']) ++ n by simp, List.reverse_append, dropWhile_append_of_all _ _ hr]
    simp only [List.reverse_append, List.reverse_cons, List.reverse_nil, List.nil_append, List.singleton_append, List.dropWhile_cons, ne_eq,
      not_true_eq_false, decide_false, Bool.false_eq_true, if_false, List.reverse_reverse]
    rcases hr' : d.reverse with _ | ⟨c, l⟩
    · rw [List.reverse_eq_nil_iff] at hr'; simp [hr'] at hd0
    have hc : c ≠ '/' := by
      rintro rfl
      exact hd (by rw [← List.head?_reverse, hr']; rfl)
    have hdd : d = l.reverse ++ [c] := by
      have := congrArg List.reverse hr'
      simpa using this
    rw [if_neg]
    · simp [List.dropWhile_cons, hc, hdd]
    · simp [hdd, hc]

theorem join_inj (d a b : Chars) (ha : '/' ∉ a) (hb : '/' ∉ b) (h : join d a = join d b) : a = b := by
  have := congrArg lastPart h
  rwa [lastPart_join _ _ ha, lastPart_join _ _ hb] at this

end Delaunay

namespace Spec

/-- The outcome of a conversion: beside every CSV file of the directory there is a file with the same name and the ending `.vtu`, made from it; all other
files are what they were. -/
def Converted {α : Type} (conv : α → Res α) (disk disk' : Delaunay.Disk α) (directory : Delaunay.Chars) (names : List Delaunay.Chars) : Prop :=
  (∀ s, s ++ ".csv".toList ∈ names → ∃ x y, disk (Delaunay.join directory (s ++ ".csv".toList)) = some x ∧ conv x = .ok y ∧
    disk' (Delaunay.join directory (s ++ ".vtu".toList)) = some y) ∧
  ∀ p, (∀ s, s ++ ".csv".toList ∈ names → p ≠ Delaunay.join directory (s ++ ".vtu".toList)) → disk' p = disk p

end Spec

namespace Delaunay
open Spec

/-- The loop over the files. -/
theorem convert_loop {α : Type} (conv : α → Res α) (directory : Chars) (hd : directory.getLast? ≠ some '/') (stems : List Chars) :
    ∀ disk : Disk α, stems.Nodup → (∀ s ∈ stems, '/' ∉ s ∧ ¬ ".csv".toList <:+: s) →
      (∀ s ∈ stems, ∃ x y, disk (join directory (s ++ ".csv".toList)) = some x ∧ conv x = .ok y) →
      ∃ disk', (stems.map fun s => join directory (s ++ ".csv".toList)).foldlM (csvToDelaunay conv) disk = .ok disk' ∧
        (∀ s ∈ stems, ∃ x y, disk (join directory (s ++ ".csv".toList)) = some x ∧ conv x = .ok y ∧
          disk' (join directory (s ++ ".vtu".toList)) = some y) ∧
        ∀ p, (∀ s ∈ stems, p ≠ join directory (s ++ ".vtu".toList)) → disk' p = disk p := by
  have e1 : '/' ∉ ".csv".toList := by decide
  have e2 : '/' ∉ ".vtu".toList := by decide
  induction stems with
  | nil => intro disk _ _ _; exact ⟨disk, rfl, by simp, fun _ _ => rfl⟩
  | cons s stems ih =>
    intro disk hn hs hx
    obtain ⟨x, y, hx1, hx2⟩ := hx s (by simp)
    obtain ⟨s1, s2⟩ := hs s (by simp)
    rw [List.nodup_cons] at hn
    have nsl : ∀ t ∈ s :: stems, '/' ∉ t ++ ".csv".toList ∧ '/' ∉ t ++ ".vtu".toList := fun t ht =>
      ⟨fun hc => (List.mem_append.1 hc).elim (hs t ht).1 e1, fun hc => (List.mem_append.1 hc).elim (hs t ht).1 e2⟩
    have hsave : savefilename (join directory (s ++ ".csv".toList)) = join directory (s ++ ".vtu".toList) := by
      unfold savefilename
      rw [lastPart_join _ _ (nsl s (by simp)).1, dirname_join _ _ (nsl s (by simp)).1 hd, splitFirst_stem s s2]
    have hstep : csvToDelaunay conv disk (join directory (s ++ ".csv".toList)) = .ok (disk.write (join directory (s ++ ".vtu".toList)) y) := by
      unfold csvToDelaunay
      rw [hx1, hsave]
      simp only [hx2]
      rfl
    have hdiff : ∀ t ∈ s :: stems, join directory (t ++ ".csv".toList) ≠ join directory (s ++ ".vtu".toList) := by
      intro t ht hc
      have hc := congrArg List.getLast? (join_inj _ _ _ (nsl t ht).1 (nsl s (by simp)).2 hc)
      rw [List.getLast?_append_of_ne_nil _ (by decide), List.getLast?_append_of_ne_nil _ (by decide)] at hc
      exact absurd hc (by decide)
    have hw : ∀ t ∈ s :: stems, disk.write (join directory (s ++ ".vtu".toList)) y (join directory (t ++ ".csv".toList)) =
        disk (join directory (t ++ ".csv".toList)) := fun t ht => if_neg (hdiff t ht)
    obtain ⟨disk', h1, h2, h3⟩ := ih (disk.write (join directory (s ++ ".vtu".toList)) y) hn.2 (fun t ht => hs t (List.mem_cons_of_mem _ ht))
      (fun t ht => by rw [hw t (List.mem_cons_of_mem _ ht)]; exact hx t (List.mem_cons_of_mem _ ht))
    refine ⟨disk', ?_, ?_, ?_⟩
    · rw [List.map_cons, List.foldlM_cons, hstep]
      exact h1
    · intro t ht
      rcases List.mem_cons.1 ht with rfl | ht
      · refine ⟨x, y, hx1, hx2, ?_⟩
        rw [h3]
        · exact if_pos rfl
        · intro u hu hc
          have := join_inj _ _ _ (nsl t (by simp)).2 (nsl u (List.mem_cons_of_mem _ hu)).2 hc
          exact hn.1 (List.append_cancel_right this ▸ hu)
      · obtain ⟨x, y, a1, a2, a3⟩ := h2 t ht
        rw [hw t (List.mem_cons_of_mem _ ht)] at a1
        exact ⟨x, y, a1, a2, a3⟩
    · intro p hp
      rw [h3 p fun t ht => hp t (List.mem_cons_of_mem _ ht)]
      exact if_neg (hp s (by simp))

/-- C145, the part that holds: in a directory with at least one CSV file, none of them hidden and none with `.csv` elsewhere in its name, each of which
ParaView can convert, every CSV file is converted to a file of its own and nothing else changes.  Missing: names with `.csv` inside (see `C145_violated`). -/
theorem C145_partial {α : Type} (conv : α → Res α) (disk : Disk α) (directory : Chars) (hd : directory.getLast? ≠ some '/') (names : List Chars)
    (hn : names.Nodup) (hsl : ∀ n ∈ names, '/' ∉ n) (hone : ∃ s, s ++ ".csv".toList ∈ names)
    (hok : ∀ s, s ++ ".csv".toList ∈ names → (s.head? ≠ some '.' ∧ s ≠ []) ∧ ¬ ".csv".toList <:+: s ∧
      ∃ x y, disk (join directory (s ++ ".csv".toList)) = some x ∧ conv x = .ok y) :
    ∃ disk', convertAll conv disk directory names = .ok disk' ∧ Converted conv disk disk' directory names := by
  set stems := (names.filter fun n => ".csv".toList.isSuffixOf n).map fun n => n.take (n.length - 4) with hst
  have hsuf : ∀ n, ".csv".toList.isSuffixOf n = true → n.take (n.length - 4) ++ ".csv".toList = n := by
    intro n hn
    rw [List.isSuffixOf_iff_suffix] at hn
    obtain ⟨t, rfl⟩ := hn
    rw [show (t ++ ".csv".toList).length - 4 = t.length by simp]
    simp
  have hmem : ∀ s, s ∈ stems ↔ s ++ ".csv".toList ∈ names := by
    intro s
    constructor
    · intro h
      obtain ⟨n, h1, rfl⟩ := List.mem_map.1 h
      rw [List.mem_filter] at h1
      rw [hsuf n h1.2]
      exact h1.1
    · intro h
      refine List.mem_map.2 ⟨_, List.mem_filter.2 ⟨h, ?_⟩, ?_⟩
      · rw [List.isSuffixOf_iff_suffix]; exact List.suffix_append _ _
      · rw [show (s ++ ".csv".toList).length - 4 = s.length by simp]
        simp
  have hfiles : csvFiles directory names = stems.map fun s => join directory (s ++ ".csv".toList) := by
    unfold csvFiles
    rw [hst, List.map_map]
    have : (names.filter fun n => ".csv".toList.isSuffixOf n && n.head? ≠ some '.') = names.filter fun n => ".csv".toList.isSuffixOf n := by
      refine List.filter_congr fun n hn => ?_
      rcases h : ".csv".toList.isSuffixOf n with _ | _
      · rfl
      · have h1 := hsuf n h
        obtain ⟨⟨h2, h3⟩, -⟩ := hok (n.take (n.length - 4)) (by rw [h1]; exact hn)
        rw [← h1, List.head?_append_of_ne_nil _ h3]
        simpa using h2
    rw [this]
    refine List.map_congr_left fun n hn => ?_
    rw [Function.comp, hsuf n (List.mem_filter.1 hn).2]
  have hnd : stems.Nodup := by
    refine List.Nodup.map_on ?_ (hn.filter _)
    intro a ha b hb hab
    rw [← hsuf a (List.mem_filter.1 ha).2, ← hsuf b (List.mem_filter.1 hb).2, hab]
  obtain ⟨disk', h1, h2, h3⟩ := convert_loop conv directory hd stems disk hnd
    (fun s hs => ⟨fun hc => hsl _ ((hmem s).1 hs) (List.mem_append_left _ hc), (hok s ((hmem s).1 hs)).2.1⟩)
    (fun s hs => (hok s ((hmem s).1 hs)).2.2)
  refine ⟨disk', ?_, fun s hs => h2 s ((hmem s).2 hs), fun p hp => h3 p fun s hs => hp s ((hmem s).1 hs)⟩
  unfold convertAll
  rw [hfiles]
  simp only
  rw [if_neg, h1]
  obtain ⟨s, hs⟩ := hone
  rw [List.length_map]
  exact Nat.ne_of_gt (List.length_pos_of_mem ((hmem s).2 hs))

/-- Two files of a sensitivity study meet the hypotheses. -/
example : "res".toList.getLast? ≠ some '/' ∧ (["wing.csv".toList, "fin.csv".toList, "notes.txt".toList].Nodup) ∧
    (∀ n ∈ ["wing.csv".toList, "fin.csv".toList, "notes.txt".toList], '/' ∉ n) ∧ ¬ ".csv".toList <:+: "wing".toList ∧
    ".csv".toList.isSuffixOf "notes.txt".toList = false := by decide

/-- C145 fails if `.csv` occurs inside a name: of `a.csv` and `a.csv_old.csv` the second one takes the place of the first, and there is no file for the
second. -/
theorem C145_violated : ¬ ∀ (disk : Disk ℕ) (directory : Chars) (names : List Chars), names.Nodup → (∀ n ∈ names, '/' ∉ n ∧ n.head? ≠ some '.') →
    (∀ n ∈ names, (disk (join directory n)).isSome) → ∀ disk', convertAll .ok disk directory names = .ok disk' →
    Converted .ok disk disk' directory names := by
  intro H
  have h := H (fun p => if p = "a.csv".toList then some 1 else if p = "a.csv_old.csv".toList then some 2 else none) []
    ["a.csv".toList, "a.csv_old.csv".toList] (by decide) (by decide) (by decide) _ rfl
  obtain ⟨x, y, h1, h2, h3⟩ := h.1 "a".toList (by decide)
  have e1 : x = 1 := by
    have : some 1 = some x := h1
    simpa using this.symm
  have e2 : y = 2 := by
    have : some 2 = some y := h3
    simpa using this.symm
  subst e1 e2
  cases h2

/-- Without a CSV file that is not hidden the program ends. -/
theorem C145_ends {α : Type} (conv : α → Res α) (disk : Disk α) (directory : Chars) (names : List Chars)
    (h : ∀ n ∈ names, ".csv".toList <:+ n → n.head? = some '.') : convertAll conv disk directory names = .error .exc := by
  unfold convertAll
  have : csvFiles directory names = [] := by
    unfold csvFiles
    rw [List.map_eq_nil_iff, List.filter_eq_nil_iff]
    intro n hn hc
    simp only [Bool.and_eq_true, List.isSuffixOf_iff_suffix, decide_eq_true_eq] at hc
    exact hc.2 (h n hn hc.1)
  simp [this]

example : ∀ n ∈ ["wing.stl".toList, ".x.csv".toList], ".csv".toList <:+ n → n.head? = some '.' := by decide

end Delaunay
end HV
