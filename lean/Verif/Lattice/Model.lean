/-
Model of the tiling logic of /repo/ipeps/ipeps.py.
-/

namespace Verif.Lattice

/-- A vertex `(x,y)` of the infinite square lattice (a Python tuple of two ints). -/
abbrev Vertex := Int × Int

/-- `(x + abs(x)*L) % L`: the wrap-around used at ipeps/ipeps.py L59, L229, L237, L432.
Python's `%` with positive divisor is the floor remainder `Int.fmod`; a zero divisor raises
ZeroDivisionError, which is why every use below is guarded by `0 < L` or returns `Option`. -/
def wrap (x L : Int) : Int := Int.fmod (x + (x.natAbs : Int) * L) L

/-- ipeps/ipeps.py L233-L238 (`IPEPS.__init__`, default closure) and L429-L432 (`read_ipeps`).
`none` models ZeroDivisionError for a zero-sized cell. -/
def defaultVertexToSite (lX lY : Int) (c : Vertex) : Option Vertex :=
  if lX = 0 ∨ lY = 0 then none else some (wrap c.1 lX, wrap c.2 lY)

/-! ### `from_pattern` (ipeps/ipeps.py L14-L83) -/

/-- Which exception `from_pattern` raises. -/
inductive PatErr
  | emptyDict      -- L42: unpacking `map(min, zip(*keys))` of an empty dict (ValueError)
  | notRectangle   -- L45, L49
  | noRows         -- L52: `pattern[0]` of an empty list (IndexError)
  | ragged         -- L57
  | keyError       -- L63/L64: a lookup outside the table (never happens, see `fromRows_no_keyError`)
  | neighbours     -- L78
  deriving DecidableEq, Repr

/-- The left, upper, right and lower neighbour labels, in the order of L64-65. -/
abbrev Nbrs (L : Type) := L × L × L × L

variable {L : Type}

/-- `_site2index[(nx,ny)]`, L59: column `nx` of row `ny`. -/
def site2index (rows : List (List L)) (nx ny : Nat) : Option L :=
  (rows[ny]?).bind (fun row => row[nx]?)

/-- `_site2index_pbc(x,y)`, L60. -/
def site2indexPbc (rows : List (List L)) (Nx Ny : Nat) (x y : Int) : Option L :=
  if Nx = 0 ∨ Ny = 0 then none
  else site2index rows (wrap x Nx).toNat (wrap y Ny).toNat

/-- The tuple `env` of L65-66; `none` is a KeyError. -/
def envOf (rows : List (List L)) (Nx Ny nx ny : Nat) : Option (Nbrs L) := do
  let l ← site2indexPbc rows Nx Ny ((nx : Int) - 1) ny
  let u ← site2indexPbc rows Nx Ny nx ((ny : Int) - 1)
  let r ← site2indexPbc rows Nx Ny ((nx : Int) + 1) ny
  let d ← site2indexPbc rows Nx Ny nx ((ny : Int) + 1)
  some (l, u, r, d)

/-- One entry of the pair of dictionaries `label_sites`, `label_envs` (L62). -/
structure Group (L : Type) where
  label : L
  sites : List (Nat × Nat)
  envs  : List (Nbrs L)

/-- Body of the double loop, L67-L72: append to an existing entry or create a new one. -/
def addTo [DecidableEq L] (label : L) (site : Nat × Nat) (env : Nbrs L) :
    List (Group L) → List (Group L)
  | [] => [⟨label, [site], [env]⟩]
  | g :: gs =>
    if g.label = label then ⟨g.label, g.sites ++ [site], g.envs ++ [env]⟩ :: gs
    else g :: addTo label site env gs

/-- The iteration order of L63-64: `nx` outer, `ny` inner. -/
def cells (Nx Ny : Nat) : List (Nat × Nat) :=
  (List.range Nx).flatMap (fun nx => (List.range Ny).map (fun ny => (nx, ny)))

/-- The double loop L63-L72. -/
def collect [DecidableEq L] (rows : List (List L)) (Nx Ny : Nat) :
    List (Nat × Nat) → List (Group L) → Option (List (Group L))
  | [], acc => some acc
  | c :: cs, acc => do
    let label ← site2index rows c.1 c.2
    let env ← envOf rows Nx Ny c.1 c.2
    collect rows Nx Ny cs (addTo label c env acc)

/-- Python's tuple order on coordinates. -/
def lexLe (a b : Nat × Nat) : Bool := a.1 < b.1 || (a.1 == b.1 && a.2 ≤ b.2)

/-- `min(sites)` of a non-empty list of coordinates, L81. -/
def lexMin : List (Nat × Nat) → Option (Nat × Nat)
  | [] => none
  | c :: cs => some (cs.foldl (fun m d => if lexLe m d then m else d) c)

/-- Insert before the first larger element. -/
def lexInsert (c : Nat × Nat) : List (Nat × Nat) → List (Nat × Nat)
  | [] => [c]
  | d :: ds => if lexLe c d then c :: d :: ds else d :: lexInsert c ds

/-- `sorted(...)`, L81. Simplification: an insertion sort stands for Python's sort; both return
the ordered permutation with respect to the tuple order. -/
def lexSort (l : List (Nat × Nat)) : List (Nat × Nat) := l.foldr lexInsert []

/-- `len(set(envs)) > 1`, L77: the list holds two different elements. -/
def twoDistinct [DecidableEq L] : List (Nbrs L) → Bool
  | [] => false
  | e :: es => es.any (fun e' => decide (e' ≠ e))

/-- What `from_pattern` returns: `_sites` and the table behind `_site2index` (L83). -/
structure PatternOk (L : Type) where
  sites : List (Nat × Nat)
  rows  : List (List L)
  deriving DecidableEq

/-- `from_pattern` on a list of rows, ipeps/ipeps.py L51-L83.
Simplification: labels are hashable (the TypeError branches L55, L75 concern the Python type
of the labels and are not modelled). -/
def fromRows [DecidableEq L] (rows : List (List L)) : Except PatErr (PatternOk L) :=
  match rows with
  | [] => .error .noRows
  | r0 :: _ =>
    let Nx := r0.length
    let Ny := rows.length
    if rows.any (fun row => row.length != Nx) then .error .ragged
    else
      match collect rows Nx Ny (cells Nx Ny) [] with
      | none => .error .keyError
      | some groups =>
        if groups.any (fun g => twoDistinct g.envs) then .error .neighbours
        else .ok ⟨lexSort (groups.filterMap (fun g => lexMin g.sites)), rows⟩

/-- `pattern[(r,c)]` for a dictionary pattern given as an association list with distinct keys. -/
def dictGet (d : List (Vertex × L)) (k : Vertex) : Option L :=
  (d.find? (fun e => e.1 == k)).map (·.2)

/-- The rows built at L46; `none` is the KeyError of L47. -/
def dictRows (d : List (Vertex × L)) (nr nc : Nat) : Option (List (List L)) :=
  (List.range nr).mapM (fun (r : Nat) =>
    (List.range nc).mapM (fun (c : Nat) => dictGet d ((r : Int), (c : Int))))

/-- minimum of a list of ints with default start, `min` of L42 -/
def minInt : Int → List Int → Int := List.foldl min
/-- maximum of a list of ints with default start, `max` of L43 -/
def maxInt : Int → List Int → Int := List.foldl max

/-- `from_pattern` on a dictionary `(row,col) ↦ label`, L41-L49 then as for rows. -/
def fromDict [DecidableEq L] (d : List (Vertex × L)) : Except PatErr (PatternOk L) :=
  match d.map (·.1) with
  | [] => .error .emptyDict
  | k :: ks =>
    let minR := minInt k.1 (ks.map (·.1))
    let minC := minInt k.2 (ks.map (·.2))
    let maxR := maxInt k.1 (ks.map (·.1))
    let maxC := maxInt k.2 (ks.map (·.2))
    if (minR, minC) ≠ (0, 0) then .error .notRectangle
    else match dictRows d (maxR + 1).toNat (maxC + 1).toNat with
      | none => .error .notRectangle
      | some rows => fromRows rows

/-! ### The constructor `IPEPS.__init__` (ipeps/ipeps.py L90-L238) -/

/-- `{self._site2index[c]: c for c in sites.keys()}` L227: later keys overwrite earlier ones.
`none`: a site outside the pattern (KeyError). -/
def label2index [DecidableEq L] (rows : List (List L)) :
    List Vertex → List (L × Vertex) → Option (List (L × Vertex))
  | [], acc => some acc
  | c :: cs, acc =>
    if c.1 < 0 ∨ c.2 < 0 then none
    else do
      let l ← site2index rows c.1.toNat c.2.toNat
      label2index rows cs ((l, c) :: acc.filter (fun e => decide (e.1 ≠ l)))

/-- The pattern closure of L228-229. -/
def patternVertexToSite [DecidableEq L] (rows : List (List L)) (lX lY : Nat)
    (l2i : List (L × Vertex)) (c : Vertex) : Option Vertex := do
  let l ← site2indexPbc rows lX lY c.1 c.2
  (l2i.find? (fun e => decide (e.1 = l))).map (·.2)

/-- Why the constructor raises. -/
inductive CtorErr
  | noSize             -- L209
  | pattern (e : PatErr)
  | siteNotInPattern   -- KeyError at L227
  | patternNoSites     -- L231
  deriving DecidableEq, Repr

/-- The geometry of a constructed state. -/
structure Geometry where
  lX : Int
  lY : Int
  vertexToSite : Vertex → Option Vertex

/-- Python truthiness of an optional int, `elif lX and lY` (L206). -/
def truthy (o : Option Int) : Option Int := o.bind (fun n => if n = 0 then none else some n)

/-- The size branch L195-L209. `sites` are the keys of the given dictionary (empty = not given). -/
def cellSize (sites : List Vertex) (pattern : List (List L)) (lX lY : Option Int) :
    Except CtorErr (Int × Int) :=
  match pattern with
  | r0 :: _ => .ok (r0.length, pattern.length)
  | [] =>
    match sites with
    | s :: ss =>
      match lX, lY with
      | some x, some y =>
        if x ≠ 0 ∧ y ≠ 0 then .ok (x, y) else .error .noSize
      | _, _ =>
        .ok (maxInt s.1 (ss.map (·.1)) - minInt s.1 (ss.map (·.1)) + 1,
             maxInt s.2 (ss.map (·.2)) - minInt s.2 (ss.map (·.2)) + 1)
    | [] =>
      match truthy lX, truthy lY with
      | some x, some y => .ok (x, y)
      | _, _ => .error .noSize

/-- `IPEPS.__init__`, geometry part L195-L238. A pattern given as list of rows; `[]` models
`pattern=None` (both are falsy). Dtype/device asserts (L188-189) are not modelled. -/
def mkGeometry [DecidableEq L] (sites : List Vertex) (vts : Option (Vertex → Option Vertex))
    (pattern : List (List L)) (lX lY : Option Int) : Except CtorErr Geometry :=
  match cellSize sites pattern lX lY with
  | .error e => .error e
  | .ok (sx, sy) =>
    match vts with
    | some f => .ok ⟨sx, sy, f⟩
    | none =>
      match pattern with
      | [] => .ok ⟨sx, sy, defaultVertexToSite sx sy⟩
      | r0 :: _ =>
        match fromRows pattern with
        | .error e => .error (.pattern e)
        | .ok _ =>
          match sites with
          | [] => .error .patternNoSites
          | _ :: _ =>
            match label2index pattern sites [] with
            | none => .error .siteNotInPattern
            | some l2i => .ok ⟨sx, sy, patternVertexToSite pattern r0.length pattern.length l2i⟩

end Verif.Lattice
