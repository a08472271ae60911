import Verif.Spec.Geo

/-!
# Specification vocabulary for moved and closed meshes
-/

namespace DF.Spec

variable {α : Type}

/-- The points of `Q` are those of `P` moved by `x ↦ A x + b`. -/
def Moved [NonUnitalNonAssocSemiring α] (A : Matrix (Fin 3) (Fin 3) α) (b : Fin 3 → α) (P Q : Serie α) : Prop :=
  WF Q ∧ Q.itemSize = 3 ∧ ItemWise (fun p q => vec 3 q = A.mulVec (vec 3 p) + b) P Q

/-- The edges of the triangles, each in the direction in which its triangle is written. -/
def directedEdges [Zero α] (I : Serie α) : List (α × α) :=
  (items I).flatMap fun t => [(num t 0, num t 1), (num t 1, num t 2), (num t 2, num t 0)]

/-- Every edge is met as often in one direction as in the other: the surface has no border and its triangles are
oriented alike. -/
def Closed [Zero α] (I : Serie α) : Prop := (directedEdges I).Perm ((directedEdges I).map Prod.swap)

instance [Zero α] [DecidableEq α] (I : Serie α) : Decidable (Closed I) := by unfold Closed; infer_instance

/-- The surfaces `I` and `J` have the same border: the edges of `I` and the edges of `J` in the opposite direction together have no border. -/
def SameBorder [Zero α] (I J : Serie α) : Prop :=
  (directedEdges I ++ (directedEdges J).map Prod.swap).Perm ((directedEdges I ++ (directedEdges J).map Prod.swap).map Prod.swap)

instance [Zero α] [DecidableEq α] (I J : Serie α) : Decidable (SameBorder I J) := by unfold SameBorder; infer_instance

end DF.Spec
