import Verif.Model.Dispatch
import Mathlib.Data.Nat.Digits.Defs

set_option linter.unusedSectionVars false

/-!
# C95: the time of a VTK file is the number in its name
-/

namespace Up4
open F

/-- The number a text of decimal digits means. -/
def decimal (ds : List Char) : ℕ := Nat.ofDigits 10 (ds.reverse.map fun c => c.toNat - '0'.toNat)

theorem decimal_eq (ds : List Char) : ds.foldl (fun n c => 10 * n + (c.toNat - '0'.toNat)) 0 = decimal ds := by
  unfold decimal
  induction ds using List.reverseRecOn with
  | nil => rfl
  | append_singleton l c ih =>
    rw [List.foldl_append, ih, List.reverse_append]
    simp only [List.foldl_cons, List.foldl_nil, List.reverse_cons, List.reverse_nil, List.nil_append, List.cons_append, List.map_cons, Nat.ofDigits_cons]
    omega

theorem parseI64_eq {ds : List Char} (h0 : ds ≠ []) (hd : ∀ c ∈ ds, c.isDigit = true) (hv : decimal ds < 2 ^ 63) : parseI64 ds = some (decimal ds : ℤ) := by
  unfold parseI64
  dsimp only
  rw [decimal_eq, if_pos ⟨h0, by rw [List.all_eq_true]; exact hd, hv⟩]

/-- No place in `pre` where a digit, one more character and `ext` follow each other. -/
def Clear (ext pre : List Char) : Prop := ¬ ∃ a d c b, pre = a ++ d :: c :: (ext ++ b) ∧ d.isDigit = true

theorem Clear.tail {ext : List Char} {x : Char} {pre : List Char} (h : Clear ext (x :: pre)) : Clear ext pre := by
  rintro ⟨a, d, c, b, rfl, hd⟩
  exact h ⟨x :: a, d, c, b, rfl, hd⟩

theorem takeWhile_digits {ds : List Char} (hd : ∀ c ∈ ds, c.isDigit = true) (c : Char) (hc : c.isDigit = false) (t : List Char) :
    (ds ++ c :: t).takeWhile Char.isDigit = ds := by
  induction ds with
  | nil => simp [hc]
  | cons d ds ih =>
    rw [List.cons_append, List.takeWhile_cons, if_pos (hd d List.mem_cons_self), ih fun c hc => hd c (List.mem_cons_of_mem _ hc)]

theorem matchHere_digits {ext ds : List Char} (h0 : ds ≠ []) (hd : ∀ c ∈ ds, c.isDigit = true) : matchHere ext (ds ++ '.' :: ext) = some ds := by
  unfold matchHere
  rw [takeWhile_digits hd '.' (by decide)]
  obtain ⟨n, hn⟩ : ∃ n, ds.length = n + 1 := ⟨ds.length - 1, by have := List.length_pos_iff.2 h0; omega⟩
  rw [hn, List.range_succ, List.reverse_append, List.reverse_singleton, List.singleton_append, List.find?_cons]
  have e : (ds ++ '.' :: ext).drop (n + 1) = '.' :: ext := by rw [← hn, List.drop_left]
  rw [e]
  have : ('.' != '\n' && ext.isPrefixOf ext) = true := by
    rw [Bool.and_eq_true]
    exact ⟨by decide, List.isPrefixOf_iff_prefix.2 (List.prefix_refl _)⟩
  dsimp only
  rw [this]
  change some ((ds ++ '.' :: ext).take (n + 1)) = _
  rw [← hn, List.take_left]

theorem takeWhile_take {s : List Char} {k : ℕ} (h : k ≤ (s.takeWhile Char.isDigit).length) : ∀ c ∈ s.take k, c.isDigit = true := by
  have hp := List.takeWhile_prefix (l := s) Char.isDigit
  intro c hc
  have h1 : s.take k = (s.takeWhile Char.isDigit).take k := by
    obtain ⟨t, ht⟩ := hp
    conv_lhs => rw [← ht]
    rw [List.take_append_of_le_length h]
  rw [h1] at hc
  have := List.mem_of_mem_take hc
  have hall : ∀ l : List Char, ∀ c ∈ l.takeWhile Char.isDigit, c.isDigit = true := by
    intro l
    induction l with
    | nil => intro c hc; cases hc
    | cons a l ih =>
      intro c hc
      rw [List.takeWhile_cons] at hc
      by_cases ha : a.isDigit = true
      · rw [if_pos ha] at hc
        rcases List.mem_cons.1 hc with rfl | hc
        · exact ha
        · exact ih c hc
      · rw [if_neg ha] at hc; cases hc
  exact hall s c this

theorem matchHere_none {ext pre ds : List Char} (he : ∀ c ∈ ext, c.isDigit = false) (h0 : ds ≠ []) (hd : ∀ c ∈ ds, c.isDigit = true)
    (hp : pre ≠ []) (hl : ∀ c, pre.getLast? = some c → c.isDigit = false) (hc : Clear ext pre) (he0 : ext ≠ []) :
    matchHere ext (pre ++ (ds ++ '.' :: ext)) = none := by
  unfold matchHere
  rw [Option.map_eq_none_iff, List.find?_eq_none]
  intro k hk hm
  rw [List.mem_reverse, List.mem_range] at hk
  set s := pre ++ (ds ++ '.' :: ext) with hs
  have hdig : ∀ c ∈ s.take (k + 1), c.isDigit = true := takeWhile_take (by omega)
  -- the digits end before the last character of `pre`
  have hshort : k + 1 < pre.length := by
    by_contra hcon
    have hin : pre.getLast hp ∈ s.take (k + 1) := by
      rw [hs, List.take_append, List.mem_append]
      left
      rw [List.take_of_length_le (by omega)]
      exact List.getLast_mem hp
    have h1 := hdig _ hin
    rw [hl _ (List.getLast?_eq_getLast_of_ne_nil hp)] at h1
    cases h1
  cases hdrop : s.drop (k + 1) with
  | nil => rw [hdrop] at hm; cases hm
  | cons c t =>
    rw [hdrop] at hm
    have hm' := (Bool.and_eq_true _ _).mp hm
    obtain ⟨b, hb⟩ := List.isPrefixOf_iff_prefix.1 hm'.2
    -- the text from the character on
    have hdp : s.drop (k + 1) = pre.drop (k + 1) ++ (ds ++ '.' :: ext) := by
      rw [hs, List.drop_append_of_le_length (by omega)]
    obtain ⟨c', q, hq⟩ : ∃ c' q, pre.drop (k + 1) = c' :: q := by
      have : pre.drop (k + 1) ≠ [] := by
        intro h
        have := congrArg List.length h
        rw [List.length_drop, List.length_nil] at this
        omega
      exact List.exists_cons_of_ne_nil this
    rw [hdrop, hq, List.cons_append] at hdp
    injection hdp with h1 h2
    subst h1
    -- t = q ++ ds ++ ...
    rw [← hb] at h2
    rcases le_or_gt ext.length q.length with hle | hgt
    · -- inside `pre`
      apply hc
      have hq2 : q = ext ++ q.drop ext.length := by
        have := congrArg (List.take ext.length) h2
        rw [List.take_left, List.take_append_of_le_length hle] at this
        conv_lhs => rw [← List.take_append_drop ext.length q, ← this]
      refine ⟨pre.take k, pre[k]'(by omega), c, q.drop ext.length, ?_, ?_⟩
      · rw [← hq2, ← hq]
        rw [← List.drop_eq_getElem_cons (by omega)]
        exact (List.take_append_drop k pre).symm
      · apply hdig
        rw [hs, List.take_append_of_le_length (by omega), List.mem_take_iff_getElem]
        exact ⟨k, by omega, rfl⟩
    · -- a digit of `ds` would be in `ext`
      obtain ⟨d0, ds', rfl⟩ := List.exists_cons_of_ne_nil h0
      have hx := congrArg (fun l => l[q.length]?) h2
      simp only [List.getElem?_append_left hgt, List.cons_append, List.getElem?_append_right (le_refl _), Nat.sub_self, List.getElem?_cons_zero] at hx
      have hmem : d0 ∈ ext := List.mem_of_getElem? hx
      have := hd d0 List.mem_cons_self
      rw [he d0 hmem] at this
      cases this

theorem digitsThen_eq {ext ds : List Char} (he : ∀ c ∈ ext, c.isDigit = false) (he0 : ext ≠ []) (h0 : ds ≠ []) (hd : ∀ c ∈ ds, c.isDigit = true)
    (pre : List Char) (hl : ∀ c, pre.getLast? = some c → c.isDigit = false) (hc : Clear ext pre) :
    digitsThen ext (pre ++ (ds ++ '.' :: ext)) = some ds := by
  induction pre with
  | nil =>
    rw [List.nil_append]
    have hm := matchHere_digits (ext := ext) h0 hd
    obtain ⟨d0, ds', rfl⟩ := List.exists_cons_of_ne_nil h0
    rw [List.cons_append] at hm ⊢
    unfold digitsThen
    rw [hm]
  | cons x pre ih =>
    have hm := matchHere_none he h0 hd (List.cons_ne_nil x pre) hl hc he0
    rw [List.cons_append] at hm ⊢
    unfold digitsThen
    rw [hm]
    dsimp only
    refine ih (fun c hc' => hl c ?_) hc.tail
    cases pre with
    | nil => cases hc'
    | cons y l => rw [List.getLast?_cons_cons]; exact hc'

/-- **C95.** With the filter `(\d+).ext` a file named `pre`, digits, `.ext` (`pre` not ending in a digit) has the step its digits mean, if nowhere in `pre` (which
includes the names of the folders) a digit is followed by one character and the letters `ext`. -/
theorem C95_step_partial {ext : List Char} (he : ∀ c ∈ ext, c.isDigit = false) (he0 : ext ≠ []) {ds pre : List Char} (h0 : ds ≠ [])
    (hd : ∀ c ∈ ds, c.isDigit = true) (hv : decimal ds < 2 ^ 63) (hl : ∀ c, pre.getLast? = some c → c.isDigit = false) (hc : Clear ext pre)
    (name : String) (hn : name.toList = pre ++ (ds ++ '.' :: ext)) :
    stepOf (fun s => digitsThen ext s.toList) name = .ok (decimal ds : ℤ) := by
  unfold stepOf
  dsimp only
  rw [hn, digitsThen_eq he he0 h0 hd pre hl hc]
  change (need (parseI64 ds)) = _
  rw [parseI64_eq h0 hd hv]
  rfl

/-- The step of `dir/vtk_0150.vtk`. -/
example : stepOf (fun s => digitsThen ['v', 't', 'k'] s.toList) "dir/vtk_0150.vtk" = .ok 150 := by
  have h := C95_step_partial (ext := ['v', 't', 'k']) (by decide) (by decide) (ds := ['0', '1', '5', '0']) (pre := "dir/vtk_".toList) (by decide) (by decide)
    (by decide) (by decide) (by
      rintro ⟨a, d, c, b, h, hd⟩
      have : d ∈ "dir/vtk_".toList := by rw [h]; simp
      have h2 : ∀ x ∈ "dir/vtk_".toList, x.isDigit = false := by decide
      rw [h2 d this] at hd
      cases hd) "dir/vtk_0150.vtk" (by decide)
  exact h

/-- **C95 is false of the code:** in a folder whose name ends in a digit the files `vtk_100.vtk` and `vtk_200.vtk` both get the digit as their step. -/
theorem C95_false : stepOf (fun s => digitsThen ['v', 't', 'k'] s.toList) "run7/vtk_100.vtk" = .ok 7 ∧
    stepOf (fun s => digitsThen ['v', 't', 'k'] s.toList) "run7/vtk_200.vtk" = .ok 7 := by
  constructor <;> decide

end Up4
