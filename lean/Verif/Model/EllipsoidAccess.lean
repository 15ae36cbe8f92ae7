import Verif.Model.Ellipsoid

/-! `EllipsoidConverter::ellipsoid`. -/

namespace Verif

/-- ellipsoid.rs:157-159; the reference is a copy here. -/
def EllipsoidConverter.ellipsoid {α : Type} (c : EllipsoidConverter α) : Ellipsoid α := c.el

end Verif
