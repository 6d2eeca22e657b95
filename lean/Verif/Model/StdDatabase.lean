import Verif.Model.DatabaseMra
import Verif.Model.DatabaseManufacturers
import Verif.Model.SuperObject

/-! The shared standard database (init.go:7-16, database.go:35-43). -/

namespace Verif.Model

/-- `newStandardDatabase` (database.go:35-43). -/
def stdDB : StdDB := StdDB.init Mra.table

end Verif.Model
