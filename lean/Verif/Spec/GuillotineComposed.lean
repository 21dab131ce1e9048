import Verif.Model.Guil.BlockRebuild

/-!
# Specification: solutions composed of bins built without exceptions
-/

namespace PackingSolver.Guil.Spec

/-- The solutions of an instance that are obtained from calls of the solution builder none of which
throws, and by appending bins of such solutions to such solutions. -/
inductive Composed (inst : Instance) : Solution → Prop
  | empty : Composed inst (Solution.init inst)
  | built {ops : List Op} {sb : SolutionBuilder} {s : Solution} :
      (SolutionBuilder.new inst).runOrThrow inst ops = .ok sb → sb.build inst = .ok s →
      Composed inst s
  | append {s other s' : Solution} {pos : Nat} {copies : Int} :
      Composed inst s → Composed inst other →
      s.appendBin inst other pos copies [] [] = .ok s' → Composed inst s'

end PackingSolver.Guil.Spec
