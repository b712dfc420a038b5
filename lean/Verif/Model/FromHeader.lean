import Verif.Model.Points
import Verif.Model.Header
import Verif.Model.Vlr
/-! # Model of the constructors that take a LAS header -/
namespace Copc

/-- `Point::Point(const LasHeader &)`, `point.cpp:19`. -/
def Point.ofHeader (h : LasHeader) : Res Point := h.ebSize.bind fun eb => Point.make h.fmt eb

/-- `Points::Points(const LasHeader &)`, `points.cpp:18`. -/
def Coll.ofHeader (h : LasHeader) : Res Coll := h.ebSize.bind fun eb => Coll.make h.fmt eb

/-- `Points::Pack(const LasHeader &)`, `points.cpp:100-111`, of the points of a collection. -/
def packPointsH (ps : List Point) (h : LasHeader) : Res Bytes := packPoints ps h.scale h.offset

end Copc
