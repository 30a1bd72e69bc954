import Verif.Model.Float

/-!
# src/util/point.rs
-/
namespace Verif

/-- src/util/point.rs:3-11 `Point`. -/
structure Point where
  x : F64
  y : F64
deriving DecidableEq

/-- src/util/point.rs:13-21 `Delta`. -/
structure Delta where
  dx : F64
  dy : F64
deriving DecidableEq

/-- src/util/point.rs:23-32 `Point + Delta`. -/
instance : HAdd Point Delta Point := ⟨fun p d => ⟨p.x + d.dx, p.y + d.dy⟩⟩
/-- src/util/point.rs:34-43 `Point - Delta`. -/
instance : HSub Point Delta Point := ⟨fun p d => ⟨p.x - d.dx, p.y - d.dy⟩⟩
/-- src/util/point.rs:45-54 `Point - Point`. -/
instance : HSub Point Point Delta := ⟨fun p q => ⟨p.x - q.x, p.y - q.y⟩⟩
/-- src/util/point.rs:56-65 `Delta + Delta`. -/
instance : HAdd Delta Delta Delta := ⟨fun d e => ⟨d.dx + e.dx, d.dy + e.dy⟩⟩
/-- src/util/point.rs:67-76 `Delta - Delta`. -/
instance : HSub Delta Delta Delta := ⟨fun d e => ⟨d.dx - e.dx, d.dy - e.dy⟩⟩
/-- src/util/point.rs:78-87 `Delta * f64`. -/
instance : HMul Delta F64 Delta := ⟨fun d s => ⟨d.dx * s, d.dy * s⟩⟩
/-- src/util/point.rs:89-98 `f64 * Delta`. -/
instance : HMul F64 Delta Delta := ⟨fun s d => ⟨d.dx * s, d.dy * s⟩⟩
/-- src/util/point.rs:100-109 `Delta / f64`. -/
instance : HDiv Delta F64 Delta := ⟨fun d s => ⟨d.dx / s, d.dy / s⟩⟩

/-- src/util/qr.rs:82-99 `QRLocation`. -/
structure QRLocation where
  top_left : Point
  top_right : Point
  bottom_left : Point
  module_size : F64
  version : Nat
deriving DecidableEq

end Verif
