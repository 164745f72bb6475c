/-
Model of the parametrization registry of ALTA: the `params::input` and
`params::output` enumerations, the table that gives each of them a name and a
dimension, and the parsing / printing functions built on it.

Modelled: /repo/sources/core/params.h 61-165, 211-242, 292-335, 435-507 and
/repo/sources/core/params.cpp 18-91, 739-822.
Not modelled here: the diagnostic messages written to `std::cout`.
-/

namespace Alta

/-- `enum params::input`, in declaration order.
    /repo/sources/core/params.h 61-149. -/
inductive Input where
  | RUSIN_TH_PH_TD_PD
  | RUSIN_TH_PH_TD
  | RUSIN_TH_TD_PD
  | RUSIN_TH_TD
  | RUSIN_VH_VD
  | RUSIN_VH
  | COS_TH_TD
  | COS_TH
  | SCHLICK_TK_PK
  | SCHLICK_VK
  | SCHLICK_TL_TK_PROJ_DPHI
  | COS_TK
  | RETRO_TL_TVL_PROJ_DPHI
  | STEREOGRAPHIC
  | SPHERICAL_TL_PL_TV_PV
  | COS_TLV
  | COS_TLR
  | ISOTROPIC_TV_TL
  | ISOTROPIC_TV_TL_DPHI
  | ISOTROPIC_TV_PROJ_DPHI
  | ISOTROPIC_TL_TV_PROJ_DPHI
  | ISOTROPIC_TD_PD
  | STARK_2D
  | STARK_3D
  | NEUMANN_2D
  | NEUMANN_3D
  | CARTESIAN
  | UNKNOWN_INPUT
  deriving DecidableEq, Repr

/-- `enum params::output`, in declaration order.
    /repo/sources/core/params.h 154-165. -/
inductive Output where
  | INV_STERADIAN
  | INV_STERADIAN_COSINE_FACTOR
  | ENERGY
  | RGB_COLOR
  | XYZ_COLOR
  | UNKNOWN_OUTPUT
  deriving DecidableEq, Repr

/-- Position of a constructor in `enum params::input`; this is the key order of
    `std::map<params::input, ...>`.  /repo/sources/core/params.h 61-149. -/
def Input.rank : Input → Nat
  | .RUSIN_TH_PH_TD_PD => 0
  | .RUSIN_TH_PH_TD => 1
  | .RUSIN_TH_TD_PD => 2
  | .RUSIN_TH_TD => 3
  | .RUSIN_VH_VD => 4
  | .RUSIN_VH => 5
  | .COS_TH_TD => 6
  | .COS_TH => 7
  | .SCHLICK_TK_PK => 8
  | .SCHLICK_VK => 9
  | .SCHLICK_TL_TK_PROJ_DPHI => 10
  | .COS_TK => 11
  | .RETRO_TL_TVL_PROJ_DPHI => 12
  | .STEREOGRAPHIC => 13
  | .SPHERICAL_TL_PL_TV_PV => 14
  | .COS_TLV => 15
  | .COS_TLR => 16
  | .ISOTROPIC_TV_TL => 17
  | .ISOTROPIC_TV_TL_DPHI => 18
  | .ISOTROPIC_TV_PROJ_DPHI => 19
  | .ISOTROPIC_TL_TV_PROJ_DPHI => 20
  | .ISOTROPIC_TD_PD => 21
  | .STARK_2D => 22
  | .STARK_3D => 23
  | .NEUMANN_2D => 24
  | .NEUMANN_3D => 25
  | .CARTESIAN => 26
  | .UNKNOWN_INPUT => 27

/-- The (key, name, dimension) triples in the order `create_map` inserts them.
    /repo/sources/core/params.cpp 28-64.  The descriptive `info` string is
    dropped.  The entry of `SCHLICK_VK` really carries the name "SCHLICK_VH"
    (line 48). -/
def inputInserts : List (Input × String × Int) :=
  [ (.COS_TH, "COS_TH", 1),
    (.COS_TK, "COS_TK", 1),
    (.COS_TLV, "COS_TLV", 1),
    (.COS_TLR, "COS_TLR", 1),
    (.RUSIN_TH_TD, "RUSIN_TH_TD", 2),
    (.COS_TH_TD, "COS_TH_TD", 2),
    (.ISOTROPIC_TV_PROJ_DPHI, "ISOTROPIC_TV_PROJ_DPHI", 2),
    (.STARK_2D, "STARK_2D", 2),
    (.NEUMANN_2D, "NEUMANN_2D", 2),
    (.RUSIN_TH_TD_PD, "RUSIN_TH_TD_PD", 3),
    (.ISOTROPIC_TV_TL_DPHI, "ISOTROPIC_TV_TL_DPHI", 3),
    (.RUSIN_VH, "RUSIN_VH", 3),
    (.SCHLICK_VK, "SCHLICK_VH", 3),
    (.ISOTROPIC_TL_TV_PROJ_DPHI, "ISOTROPIC_TL_TV_PROJ_DPHI", 3),
    (.SCHLICK_TL_TK_PROJ_DPHI, "SCHLICK_TL_TK_PROJ_DPHI", 3),
    (.RETRO_TL_TVL_PROJ_DPHI, "RETRO_TL_TVL_PROJ_DPHI", 3),
    (.STARK_3D, "STARK_3D", 3),
    (.NEUMANN_3D, "NEUMANN_3D", 3),
    (.RUSIN_TH_PH_TD_PD, "RUSIN_TH_PH_TD_PD", 4),
    (.SPHERICAL_TL_PL_TV_PV, "SPHERICAL_TL_PL_TV_PV", 4),
    (.STEREOGRAPHIC, "STEREOGRAPHIC", 4),
    (.CARTESIAN, "CARTESIAN", 6) ]

/-- `std::map::insert` on the sorted association list of a map: keeps the old
    entry when the key is present.  Used by `create_map`,
    /repo/sources/core/params.cpp 28-64. -/
def mapInsert (e : Input × String × Int) :
    List (Input × String × Int) → List (Input × String × Int)
  | [] => [e]
  | f :: fs =>
    if e.1.rank < f.1.rank then e :: f :: fs
    else if e.1 = f.1 then f :: fs
    else f :: mapInsert e fs

/-- `input_map`, in iteration order.  /repo/sources/core/params.cpp 28-65. -/
def inputMap : List (Input × String × Int) :=
  inputInserts.foldl (fun m e => mapInsert e m) []

/-- `params::parse_input`.  /repo/sources/core/params.cpp 739-753. -/
def parseInput (txt : String) : Input :=
  match inputMap.find? (fun e => txt == e.2.1) with
  | some e => e.1
  | none => .UNKNOWN_INPUT

/-- `params::get_name(params::input)`.  /repo/sources/core/params.cpp 783-797. -/
def inputName (p : Input) : String :=
  match inputMap.find? (fun e => e.1 == p) with
  | some e => e.2.1
  | none => "UNKNOWN_INPUT"

/-- `params::dimension(params::input)`.  /repo/sources/core/params.cpp 811-822. -/
def inputDim (p : Input) : Int :=
  match inputMap.find? (fun e => e.1 == p) with
  | some e => e.2.2
  | none => -1

/-- `params::parse_output`.  /repo/sources/core/params.cpp 755-781. -/
def parseOutput (txt : String) : Output :=
  if txt == "ENERGY" then .ENERGY
  else if txt == "INV_STERADIAN" then .INV_STERADIAN
  else if txt == "INV_STERADIAN_COSINE_FACTOR" then .INV_STERADIAN_COSINE_FACTOR
  else if txt == "RGB_COLOR" then .RGB_COLOR
  else if txt == "XYZ_COLOR" then .XYZ_COLOR
  else .UNKNOWN_OUTPUT

/-- `output_map`.  /repo/sources/core/params.cpp 68-91. -/
def outputMap : List (Output × String) :=
  [ (.INV_STERADIAN, "INV_STERADIAN"),
    (.INV_STERADIAN_COSINE_FACTOR, "INV_STERADIAN_COSINE_FACTOR"),
    (.ENERGY, "ENERGY"),
    (.RGB_COLOR, "RGB_COLOR"),
    (.XYZ_COLOR, "XYZ_COLOR") ]

/-- `params::get_name(params::output)`.  /repo/sources/core/params.cpp 799-809. -/
def outputName (p : Output) : String :=
  match outputMap.find? (fun e => e.1 == p) with
  | some e => e.2
  | none => "UNKNOWN_OUTPUT"

/-- `params::dimension(params::output)`; `none` is the `assert(false)` branch.
    /repo/sources/core/params.h 295-316. -/
def outputDim : Output → Option Int
  | .INV_STERADIAN => some 1
  | .ENERGY => some 1
  | .RGB_COLOR => some 3
  | .XYZ_COLOR => some 3
  | _ => none

/-- `params::is_cosine_weighted`.  /repo/sources/core/params.h 319-335. -/
def isCosineWeighted : Output → Bool
  | .INV_STERADIAN_COSINE_FACTOR => true
  | _ => false

/-- Class `parameters`.  /repo/sources/core/params.h 435-507. -/
structure Parameters where
  inParam : Input
  outParam : Output
  nX : Int
  nY : Int
  deriving DecidableEq, Repr

/-- `parameters::set_input`.  /repo/sources/core/params.h 490-493. -/
def Parameters.setInput (s : Parameters) (nX : Int) (p : Input) : Parameters :=
  { inParam := p, outParam := s.outParam, nX := nX, nY := s.nY }

/-- `parameters::set_output`.  /repo/sources/core/params.h 495-498. -/
def Parameters.setOutput (s : Parameters) (nY : Int) (p : Output) : Parameters :=
  { inParam := s.inParam, outParam := p, nX := s.nX, nY := nY }

/-- Default constructor `parameters()`.  /repo/sources/core/params.h 438-444. -/
def Parameters.empty : Parameters :=
  { inParam := .UNKNOWN_INPUT, outParam := .UNKNOWN_OUTPUT, nX := 0, nY := 0 }

end Alta
