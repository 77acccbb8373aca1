import Verif.Grid.GridModel

/-!
Model of the tools that make a map from another one: tools/env_mls_to_pointcloud.cpp l.44-62, and the grids that tools/env_mls_slopes.cpp l.43-47 and tools/env_traversability.cpp l.35-39 make for their results.

Simplifications: exact numbers of an ordered field with floor. Of a patch the mean is modelled. The maps are in the same frame node as the map they are made from (l.45; l.47; l.39), so that coordinates in this frame are compared. What is written into the cells of the grids are C89 and C68.
-/

namespace Envire.ToolMaps

open Envire.Grid (GridBase)

variable {K : Type} [Field K] [LinearOrder K] [FloorRing K]

/-- env_mls_to_pointcloud.cpp l.47-62; `cells m n` are the means of the patches of a cell -/
def mlsToCloud (g : GridBase K) (cells : Nat → Nat → List K) : List (K × K × K) :=
  (List.range g.nx).flatMap fun m => (List.range g.ny).flatMap fun n => (cells m n).map fun mean => ((g.fromGrid m n).1, (g.fromGrid m n).2, mean)

/-- the new grid: the number of cells and the scale of the old one, the offset has its default 0, src/maps/Grid.hpp l.106-108 -/
def resultGrid (g : GridBase K) : GridBase K := { nx := g.nx, ny := g.ny, sx := g.sx, sy := g.sy, ox := 0, oy := 0 }

end Envire.ToolMaps
