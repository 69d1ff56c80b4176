import Verif.Record.Data
/-
  The comparison operators of records.
-/
namespace ENDFtk
variable [Disco]

/-- `std::vector< T >::operator==`: equal sizes, then element by element -/
def vectorEq {α : Type} (eq : α → α → Bool) (a b : List α) : Bool :=
  a.length == b.length && (a.zip b).all (fun p => eq p.1 p.2)

/-- ControlRecord.hpp 106-109, record/Base.hpp 92-112 (all fields, from the first) -/
def Cont.equal (a b : Cont) : Bool :=
  Disco.eqD b.c1 a.c1 && (Disco.eqD b.c2 a.c2 && (b.l1 == a.l1 && (b.l2 == a.l2 && (b.n1 == a.n1 && b.n2 == a.n2))))

/-- DirectoryRecord.hpp 101-104, record/Base.hpp 92-112 -/
def Dir.equal (a b : Dir) : Bool := b.mf == a.mf && (b.mt == a.mt && (b.nc == a.nc && b.mod == a.mod))

/-- python/src/record/DirectoryRecord.python.cpp 83-88 (`__eq__`) -/
def Dir.equalPython (a b : Dir) : Bool := a.mf == b.mf && a.mt == b.mt && a.nc == b.nc && a.mod == b.mod

/-- TextRecord.hpp 57-60, record/Base.hpp 92-112 (`std::string`) -/
def textEqual (a b : Text) : Bool := b == a

/-- ListRecord.hpp 139-147 -/
def LIST.equal (a b : LIST) : Bool :=
  Disco.eqD a.c1 b.c1 && Disco.eqD a.c2 b.c2 && a.l1 == b.l1 && a.l2 == b.l2 && a.n2 == b.n2 && vectorEq Disco.eqD a.data b.data

/-- InterpolationRecord.hpp 53-56, record/InterpolationBase.hpp 94-101 -/
def TAB2.equal (a b : TAB2) : Bool :=
  Disco.eqD a.c1 b.c1 && Disco.eqD a.c2 b.c2 && a.l1 == b.l1 && a.l2 == b.l2 && vectorEq (· == ·) a.bounds b.bounds && vectorEq (· == ·) a.ints b.ints

/-- TabulationRecord.hpp 124-129 -/
def TAB1.equal (a b : TAB1) : Bool :=
  a.base.equal b.base && vectorEq Disco.eqD a.x b.x && vectorEq Disco.eqD a.y b.y

/-- ControlRecord.hpp 116-119, DirectoryRecord.hpp 111-114, TextRecord.hpp 67-70, ListRecord.hpp 154-157, InterpolationRecord.hpp 63-66,
    TabulationRecord.hpp 136-139: `not ( *this == rhs )` -/
def notEqual {α : Type} (eq : α → α → Bool) (a b : α) : Bool := !eq a b

end ENDFtk
