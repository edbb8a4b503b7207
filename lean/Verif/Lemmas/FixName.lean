import Verif.Model.Fix58b
/-
The default name of a repaired file.
-/
namespace Verif

theorem rfind_none {c : Char} {p : Text} (h : c ∉ p) : rfind c p = none := by
  unfold rfind
  rw [List.find?_eq_none]
  intro i _ hi
  exact h (List.mem_of_getElem? (of_decide_eq_true hi))

theorem rfind_last {c : Char} (a b : Text) (h : c ∉ b) : rfind c (a ++ c :: b) = some a.length := by
  unfold rfind
  rw [List.length_append, List.length_cons, List.range_add, List.reverse_append, List.find?_append]
  have h1 : (List.map (fun x => a.length + x) (List.range (b.length + 1))).reverse.find? (fun i => (a ++ c :: b)[i]? = some c) = some a.length := by
    rw [List.range_succ_eq_map, List.map_cons, List.reverse_cons, List.find?_append]
    have h2 : (List.map (fun x => a.length + x) (List.map Nat.succ (List.range b.length))).reverse.find? (fun i => (a ++ c :: b)[i]? = some c) = none := by
      rw [List.find?_eq_none]
      intro i hi hc
      simp only [List.map_map, List.mem_reverse, List.mem_map, Function.comp] at hi
      obtain ⟨x, _, rfl⟩ := hi
      have hc := of_decide_eq_true hc
      rw [List.getElem?_append_right (by omega), Nat.add_sub_cancel_left, List.getElem?_cons_succ] at hc
      exact h (List.mem_of_getElem? hc)
    rw [h2]
    simp
  rw [h1]; rfl

theorem compStart_eq (dir base : Text) (hd : dir = [] ∨ dir.getLast? = some '/') (hb : '/' ∉ base) : compStart (dir ++ base) = dir.length := by
  unfold compStart
  rcases hd with rfl | hd
  · rw [List.nil_append, rfind_none hb]; rfl
  · obtain ⟨x, rfl⟩ := List.getLast?_eq_some_iff.1 hd
    rw [List.append_assoc, List.singleton_append, rfind_last x base hb]
    simp

theorem slice_middle (a b c : Text) : slice (a ++ (b ++ c)) a.length (a.length + b.length) = b := by
  unfold slice
  simp

theorem fixedName_ext (dir stem ext : Text) (hd : dir = [] ∨ dir.getLast? = some '/') (hb : '/' ∉ stem ++ '.' :: ext) (he : '.' ∉ ext)
    (hs : ∃ c ∈ stem, c ≠ '.') : fixedName (dir ++ (stem ++ '.' :: ext)) = dir ++ (stem ++ ("_fixed".toList ++ '.' :: ext)) := by
  have e : splitExt (dir ++ (stem ++ '.' :: ext)) = (dir ++ stem, '.' :: ext) := by
    unfold splitExt
    rw [compStart_eq dir _ hd hb]
    have hr : rfind '.' (dir ++ (stem ++ '.' :: ext)) = some (dir ++ stem).length := by
      rw [← List.append_assoc]; exact rfind_last _ _ he
    rw [hr]
    simp only
    rw [if_pos]
    · rw [← List.append_assoc, List.take_left, List.drop_left]
    · refine ⟨by simp, ?_⟩
      rw [List.length_append, slice_middle]
      obtain ⟨c, hc, hn⟩ := hs
      exact List.any_eq_true.2 ⟨c, hc, by simpa using hn⟩
  unfold fixedName
  rw [e, List.append_assoc]

theorem fixedName_plain (dir dots rest : Text) (hd : dir = [] ∨ dir.getLast? = some '/') (hb : '/' ∉ dots ++ rest) (hdots : ∀ c ∈ dots, c = '.')
    (hr : '.' ∉ rest) : fixedName (dir ++ (dots ++ rest)) = dir ++ (dots ++ rest) ++ "_fixed".toList := by
  have e : splitExt (dir ++ (dots ++ rest)) = (dir ++ (dots ++ rest), []) := by
    unfold splitExt
    rw [compStart_eq dir _ hd hb]
    rcases List.eq_nil_or_concat dots with rfl | ⟨l, b, rfl⟩
    · rw [List.nil_append] at hb ⊢
      by_cases hdd : '.' ∈ dir
      · obtain ⟨a, b, rfl, hb'⟩ : ∃ a b, dir = a ++ '.' :: b ∧ '.' ∉ b := by
          have hdd' : '.' ∈ dir.reverse := List.mem_reverse.2 hdd
          obtain ⟨s, t, h1, h2⟩ := List.eq_append_cons_of_mem hdd'
          refine ⟨t.reverse, s.reverse, ?_, by simpa using h2⟩
          rw [← List.reverse_reverse dir, h1]; simp
        rw [List.append_assoc, List.cons_append, rfind_last a (b ++ rest) (by simp [hb', hr])]
        simp only
        rw [if_neg]
        rintro ⟨h1, -⟩
        rw [List.length_append, List.length_cons] at h1
        omega
      · rw [rfind_none (by simp [hdd, hr])]
    · obtain rfl : b = '.' := hdots b (by simp)
      rw [List.concat_eq_append] at hdots ⊢
      have hx : rfind '.' (dir ++ (l ++ ['.'] ++ rest)) = some (dir ++ l).length := by
        have := rfind_last (dir ++ l) rest hr
        simpa using this
      rw [hx]
      simp only
      rw [if_neg]
      rintro ⟨-, h2⟩
      rw [List.length_append, List.append_assoc, slice_middle] at h2
      obtain ⟨c, hc, hn⟩ := List.any_eq_true.1 h2
      exact absurd (hdots c (by simp [hc])) (by simpa using hn)
  unfold fixedName
  rw [e, List.append_nil]

end Verif
