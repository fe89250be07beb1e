import Verif.Rdm.SixSpec
/-
The physical labels of the patches.
-/
namespace Verif.Rdm
variable {os : List Nat}

theorem physLabels6_0 (hos : os ∈ [0, 1, 2, 3, 4, 5].sublists) : (physLabels6 os).getD 0 0 = 100 := by
  have : ∀ os ∈ [0, 1, 2, 3, 4, 5].sublists, (physLabels6 os).getD 0 0 = 100 := by decide +kernel
  exact this os hos

theorem physLabels6_1 (hos : os ∈ [0, 1, 2, 3, 4, 5].sublists) : (physLabels6 os).getD 1 0 = Spec.bra os 0 := by
  have : ∀ os ∈ [0, 1, 2, 3, 4, 5].sublists, (physLabels6 os).getD 1 0 = Spec.bra os 0 := by decide +kernel
  exact this os hos

theorem physLabels6_2 (hos : os ∈ [0, 1, 2, 3, 4, 5].sublists) : (physLabels6 os).getD 2 0 = 102 := by
  have : ∀ os ∈ [0, 1, 2, 3, 4, 5].sublists, (physLabels6 os).getD 2 0 = 102 := by decide +kernel
  exact this os hos

theorem physLabels6_3 (hos : os ∈ [0, 1, 2, 3, 4, 5].sublists) : (physLabels6 os).getD 3 0 = Spec.bra os 1 := by
  have : ∀ os ∈ [0, 1, 2, 3, 4, 5].sublists, (physLabels6 os).getD 3 0 = Spec.bra os 1 := by decide +kernel
  exact this os hos

theorem physLabels6_4 (hos : os ∈ [0, 1, 2, 3, 4, 5].sublists) : (physLabels6 os).getD 4 0 = 104 := by
  have : ∀ os ∈ [0, 1, 2, 3, 4, 5].sublists, (physLabels6 os).getD 4 0 = 104 := by decide +kernel
  exact this os hos

theorem physLabels6_5 (hos : os ∈ [0, 1, 2, 3, 4, 5].sublists) : (physLabels6 os).getD 5 0 = Spec.bra os 2 := by
  have : ∀ os ∈ [0, 1, 2, 3, 4, 5].sublists, (physLabels6 os).getD 5 0 = Spec.bra os 2 := by decide +kernel
  exact this os hos

theorem physLabels6_6 (hos : os ∈ [0, 1, 2, 3, 4, 5].sublists) : (physLabels6 os).getD 6 0 = 106 := by
  have : ∀ os ∈ [0, 1, 2, 3, 4, 5].sublists, (physLabels6 os).getD 6 0 = 106 := by decide +kernel
  exact this os hos

theorem physLabels6_7 (hos : os ∈ [0, 1, 2, 3, 4, 5].sublists) : (physLabels6 os).getD 7 0 = Spec.bra os 3 := by
  have : ∀ os ∈ [0, 1, 2, 3, 4, 5].sublists, (physLabels6 os).getD 7 0 = Spec.bra os 3 := by decide +kernel
  exact this os hos

theorem physLabels6_8 (hos : os ∈ [0, 1, 2, 3, 4, 5].sublists) : (physLabels6 os).getD 8 0 = 108 := by
  have : ∀ os ∈ [0, 1, 2, 3, 4, 5].sublists, (physLabels6 os).getD 8 0 = 108 := by decide +kernel
  exact this os hos

theorem physLabels6_9 (hos : os ∈ [0, 1, 2, 3, 4, 5].sublists) : (physLabels6 os).getD 9 0 = Spec.bra os 4 := by
  have : ∀ os ∈ [0, 1, 2, 3, 4, 5].sublists, (physLabels6 os).getD 9 0 = Spec.bra os 4 := by decide +kernel
  exact this os hos

theorem physLabels6_10 (hos : os ∈ [0, 1, 2, 3, 4, 5].sublists) : (physLabels6 os).getD 10 0 = 110 := by
  have : ∀ os ∈ [0, 1, 2, 3, 4, 5].sublists, (physLabels6 os).getD 10 0 = 110 := by decide +kernel
  exact this os hos

theorem physLabels6_11 (hos : os ∈ [0, 1, 2, 3, 4, 5].sublists) : (physLabels6 os).getD 11 0 = Spec.bra os 5 := by
  have : ∀ os ∈ [0, 1, 2, 3, 4, 5].sublists, (physLabels6 os).getD 11 0 = Spec.bra os 5 := by decide +kernel
  exact this os hos

end Verif.Rdm
