import Verif.Model.Report
import Verif.Spec.File
/-
Specification vocabulary: what is read off a model, with each real replaced by the one it comes back as from a file.
-/
namespace Verif

/-- the same outcome with another value -/
def Ret.on {α β : Type} (f : α → β) : Ret α → Ret β
  | .val a => .val (f a)
  | .panic => .panic

/-- the entries as they come back from a file -/
def DataMap.rounded (m : DataMap) : DataMap := m.map fun ie => (ie.1, ie.2.reread)

namespace Mapping

def rounded2 (v : V2) : V2 := (v.1.reread, v.2.reread)

def rounded3 (v : V3) : V3 := (v.1.reread, v.2.1.reread, v.2.2.reread)

def Axis2.rounded (a : Axis2) : Axis2 := ⟨rounded2 a.location, a.localX.map rounded2⟩

def Axis3.rounded (a : Axis3) : Axis3 := ⟨rounded3 a.location, a.localZ.map rounded3, a.localX.map rounded3⟩

def Axis.rounded : Axis → Axis
  | .d2 a => .d2 a.rounded
  | .d3 a => .d3 a.rounded

def Points.rounded : Points → Points
  | .d2 l => .d2 (l.map rounded2)
  | .d3 l => .d3 (l.map rounded3)

def Profile.rounded : Profile → Profile
  | .rectangle p => .rectangle (p.1.map Axis.rounded, p.2.1.reread, p.2.2.reread)
  | .arbitrary p => .arbitrary (p.1, p.2.rounded)

def Solid.rounded (s : Solid) : Solid :=
  ⟨s.profile.rounded, s.position.map Axis3.rounded, rounded3 s.direction, s.depth.reread⟩

def Transform.rounded (t : Transform) : Transform :=
  ⟨t.translation.map rounded3, t.axisX.map rounded3, t.axisY.map rounded3, t.axisZ.map rounded3, t.scale.map F64.reread,
    t.more.map fun x => (x.1.map F64.reread, x.2.map F64.reread)⟩

end Mapping

namespace Report

/-- the same outcome with another value -/
def Out.on {α β : Type} (f : α → β) : Out α → Out β
  | .val a => .val (f a)
  | .panic => .panic
  | .more => .more

def Shape.rounded : Shape → Shape
  | .mapped o t => .mapped o.rounded t.rounded
  | .solid s => .solid s.rounded

def Line.rounded (l : Line) : Line := { l with shape := l.shape.rounded }

def About.rounded : About → About
  | .wall k n l os => .wall k n (l.map Line.rounded) (os.map fun o => (o.1, o.2.map Line.rounded))
  | .element l => .element (l.map Line.rounded)
  | .nothing => .nothing

def OfStorey.rounded (s : OfStorey) : OfStorey := { s with structures := s.structures.map fun x => (x.1, x.2.rounded) }

/-- what is printed, with each real replaced by the one it comes back as -/
def Printed.rounded (p : Printed) : Printed := { p with storeys := p.storeys.map OfStorey.rounded }

end Report
end Verif
