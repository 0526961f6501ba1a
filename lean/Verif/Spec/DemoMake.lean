/- Concrete parsed MAKE statements for the examples. -/
import Verif.Spec.DemoFS
import Verif.Spec.Make

namespace WG

/-- `(:L{props})` -/
def demoNode (label : Str) (props : Option Str) : PartText := ⟨some c!"(..)", none, some label, props⟩
/-- A relationship with the given text. -/
def demoRel (text : Str) (name : Str) (props : Option Str) : PartText := ⟨some text, none, some name, props⟩

/-- `(:A{x:1})-[:R]->(:B)` -/
def demoRight : ParsedPattern :=
  ⟨demoNode c!"A" (some c!"{x: 1}"), demoRel c!"-[:R]->" c!"R" none, demoNode c!"B" none, .absent, .absent⟩
/-- `(:A)<-[:R{y:true}]-(:B)` -/
def demoLeft : ParsedPattern :=
  ⟨demoNode c!"A" none, demoRel c!"<-[:R{y:true}]-" c!"R" (some c!"{y: true}"), demoNode c!"B" none, .absent, .absent⟩
/-- `(:A)-[:R]->(:B)-[:S]->(:C)` -/
def demoThree : ParsedPattern :=
  ⟨demoNode c!"A" none, demoRel c!"-[:R]->" c!"R" none, demoNode c!"B" none,
    demoRel c!"-[:S]->" c!"S" none, demoNode c!"C" none⟩
/-- `(:A)-[:R]->(:B)<-[:S]-(:C)` -/
def demoThreeL : ParsedPattern :=
  ⟨demoNode c!"A" none, demoRel c!"-[:R]->" c!"R" none, demoNode c!"B" none,
    demoRel c!"<-[:S]-" c!"S" none, demoNode c!"C" none⟩
/-- `(:A)` -/
def demoSingle : ParsedPattern := ⟨demoNode c!"A" none, .absent, .absent, .absent, .absent⟩
/-- `(:A{x: [1j]})-[:R]->(:B)`: the property is a list with a complex number -/
def demoOpq : ParsedPattern :=
  ⟨demoNode c!"A" (some c!"{x: [1j]}"), demoRel c!"-[:R]->" c!"R" none, demoNode c!"B" none, .absent, .absent⟩
/-- One statement with the given patterns. -/
def demoMake (ps : List ParsedPattern) : List ParsedMake := [⟨[], .make, ps⟩]

end WG
