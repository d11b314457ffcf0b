/-! # List lemmas missing in core -/

namespace Csvw

theorem nodup_map {α β : Type _} {f : α → β} (hf : ∀ a b, f a = f b → a = b) {l : List α} (h : l.Nodup) :
    (l.map f).Nodup := by
  rw [List.nodup_iff_pairwise_ne, List.pairwise_map]
  exact (List.nodup_iff_pairwise_ne.1 h).imp (fun hab hf' => hab (hf _ _ hf'))

theorem map_fst_zip_take {α β : Type _} (l : List α) (m : List β) : (l.zip m).map Prod.fst = l.take m.length := by
  induction l generalizing m with
  | nil => simp
  | cons a l ih =>
    cases m with
    | nil => simp
    | cons b m => simp [ih]

theorem zip_fst_snd {α β : Type _} (d : List (α × β)) : (d.map Prod.fst).zip (d.map Prod.snd) = d := by
  induction d with
  | nil => rfl
  | cons p d ih => simp [ih]

end Csvw
