import Verif.Model.TableGroup
/-!
# The order of strings by code points, and `sorted`
-/

namespace Csvw
namespace StrLe
open TableGroup

theorem toNat_inj {a b : Char} (h : a.toNat = b.toNat) : a = b := by
  apply Char.ext
  exact UInt32.toNat_inj.1 h

theorem refl (a : Str) : strLe a a = true := by
  induction a with
  | nil => rfl
  | cons c r ih => simp [strLe, ih]

theorem total (a b : Str) : (strLe a b || strLe b a) = true := by
  induction a generalizing b with
  | nil => simp [strLe]
  | cons c r ih =>
    cases b with
    | nil => simp [strLe]
    | cons d s =>
      unfold strLe
      by_cases h : c = d
      · subst h; simpa using ih s
      · rw [if_neg h, if_neg (Ne.symm h)]
        have : c.toNat ≠ d.toNat := fun hh => h (toNat_inj hh)
        simp only [Bool.or_eq_true, decide_eq_true_eq]
        omega

theorem antisymm {a b : Str} (h1 : strLe a b = true) (h2 : strLe b a = true) : a = b := by
  induction a generalizing b with
  | nil => cases b with
    | nil => rfl
    | cons d s => simp [strLe] at h2
  | cons c r ih =>
    cases b with
    | nil => simp [strLe] at h1
    | cons d s =>
      unfold strLe at h1 h2
      by_cases h : c = d
      · subst h
        simp only [if_true] at h1 h2
        rw [ih h1 h2]
      · rw [if_neg h] at h1
        rw [if_neg (Ne.symm h)] at h2
        simp only [decide_eq_true_eq] at h1 h2
        omega

theorem trans {a b c : Str} (h1 : strLe a b = true) (h2 : strLe b c = true) : strLe a c = true := by
  induction a generalizing b c with
  | nil => cases c <;> simp [strLe]
  | cons x r ih =>
    cases b with
    | nil => simp [strLe] at h1
    | cons y s =>
      cases c with
      | nil => simp [strLe] at h2
      | cons z t =>
        unfold strLe at h1 h2 ⊢
        by_cases hxy : x = y
        · subst hxy
          simp only [if_true] at h1
          by_cases hxz : x = z
          · subst hxz
            simp only [if_true] at h2 ⊢
            exact ih h1 h2
          · rw [if_neg hxz] at h2 ⊢
            exact h2
        · rw [if_neg hxy] at h1
          by_cases hyz : y = z
          · subst hyz
            rw [if_neg hxy]
            exact h1
          · rw [if_neg hyz] at h2
            simp only [decide_eq_true_eq] at h1 h2
            have : x ≠ z := by
              rintro rfl
              omega
            rw [if_neg this]
            simp only [decide_eq_true_eq]
            omega

end StrLe
end Csvw
