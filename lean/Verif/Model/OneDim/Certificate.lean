import Verif.Model.OneDim.Solution

/-!
# One-dimensional certificate files

Models `Solution::write` (`src/onedimensional/solution.cpp:264–300`) and
`SolutionBuilder::read` (`src/onedimensional/solution_builder.cpp:38–125`).  A file
is the list of its rows under the fixed header `TYPE,ID,COPIES,BIN,X,LX`; printing
and parsing of the integers themselves is not modelled.
-/

namespace PackingSolver.OneDim

/-- One row of a certificate file. -/
structure CertificateRow where
  type : String
  id : Int
  copies : Int
  bin : Int
  x : Int
  lx : Int
deriving DecidableEq, Repr

/-- The rows of one bin, `solution.cpp:277–298`. -/
def certificateBin (inst : Instance) (pos : Nat) (b : SolutionBin) : List CertificateRow :=
  ⟨"BIN", b.binTypeId, b.copies, pos, 0, (inst.binType b.binTypeId).length⟩
  :: b.items.map fun it =>
    ⟨"ITEM", it.itemTypeId, b.copies, pos, it.start, (inst.itemType it.itemTypeId).length⟩

/-- `Solution::write`, `solution.cpp:264–300`. -/
def Solution.certificate (inst : Instance) (s : Solution) : List CertificateRow :=
  s.bins.zipIdx.flatMap fun p => certificateBin inst p.2 p.1

/-- One row of `SolutionBuilder::read`, `solution_builder.cpp:58–124`: the value -1
means "missing".  Other negative ids or positions index vectors out of range. -/
def SolutionBuilder.readRow (inst : Instance) (sb : SolutionBuilder) (row : CertificateRow) :
    Except Err SolutionBuilder :=
  if row.type = "" then .error .runtimeError
  else if row.id = -1 then .error .runtimeError
  else if row.copies = -1 then .error .runtimeError
  else if row.bin = -1 then .error .runtimeError
  else if row.x = -1 then .error .runtimeError
  else if row.lx = -1 then .error .runtimeError
  else if row.type = "BIN" then
    if row.id < 0 then .error .ub else sb.addBin inst row.id.toNat row.copies
  else if row.type = "ITEM" then
    if row.id < 0 ∨ row.bin < 0 then .error .ub else sb.addItem row.bin.toNat row.id.toNat
  else .error .runtimeError

/-- `SolutionBuilder::read` on a new builder followed by `build`. -/
def SolutionBuilder.readCertificate (inst : Instance) (rows : List CertificateRow) :
    Except Err Solution := do
  let sb ← rows.foldlM (SolutionBuilder.readRow inst) (SolutionBuilder.new inst)
  sb.build inst

end PackingSolver.OneDim
