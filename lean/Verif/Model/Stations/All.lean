import Verif.Model.Stations.Part0
import Verif.Model.Stations.Part1
import Verif.Model.Stations.Part2
import Verif.Model.Stations.Part3
import Verif.Model.Stations.Part4
import Verif.Model.Stations.Part5
import Verif.Model.Stations.Part6
import Verif.Model.Stations.Part7
import Verif.Model.Stations.Part8
import Verif.Model.Stations.Part9
import Verif.Model.Stations.Countries

/-
The tables of the library. Generated by tools/stations2lean.py.
-/

namespace Verif

/-- `STATIONS` (database/stations.py), in blocks of a hundred rows. -/
noncomputable def stationBlocks : List (List StationRow) := [
  stations00, stations01, stations02, stations03, stations04, stations05, stations06, stations07,
  stations08, stations09, stations10, stations11, stations12, stations13, stations14, stations15,
  stations16, stations17, stations18, stations19, stations20, stations21, stations22, stations23,
  stations24, stations25, stations26, stations27, stations28, stations29, stations30, stations31,
  stations32, stations33, stations34, stations35, stations36, stations37, stations38, stations39,
  stations40, stations41, stations42, stations43, stations44, stations45, stations46, stations47,
  stations48, stations49, stations50, stations51, stations52, stations53, stations54, stations55,
  stations56, stations57, stations58, stations59, stations60, stations61, stations62, stations63,
  stations64, stations65, stations66, stations67, stations68, stations69, stations70, stations71,
  stations72, stations73, stations74, stations75, stations76, stations77, stations78, stations79,
  stations80, stations81, stations82, stations83, stations84, stations85, stations86, stations87,
  stations88, stations89, stations90, stations91, stations92, stations93]

/-- The tables of the library: `STATIONS` (database/stations.py) and `COUNTRIES`
(database/countries.py). -/
noncomputable def libraryDb : Database := ⟨stationBlocks.flatten, countriesTable⟩

end Verif
