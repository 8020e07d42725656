import Verif.Model.Yaml
/-
The texts of the three configuration files shipped with the package, verbatim, line by line.
-/
namespace Geec

/-- lines of a text, each ended by a newline -/
def unlines (ls : List (List Char)) : List Char := ls.flatMap (· ++ ['\n'])

/-- the lines of /repo/geec/cfg/config_default.yaml:1-52 -/
def defaultsLines : List String := [
  "",
  "# List of Mass Bodies",
  "masses:",
  "  # Warning: indentation and hyphen (-) are required, even if there's only one",
  "  # mass.",
  "  - # coordinates from",
  "    # choose one between [points, file_path]",
  "    points: # list of points [x,y,z | lon,lat,h]",
  "    file_path: \"./geec/data/dem0.csv\" # full path to file with mass body points",
  "    density: 1000. # density of the mass body [kg m-3]",
  "    gravity_constant: 6.67408e-11 # gravity constant [m3 kg−1 s−2]",
  "    # coordinates reference system",
  "    crs:",
  "      ref: ellps # [cart, enu, ellps] default: ellps (ellipsoid reference)",
  "",
  "      # ellispoid parameters",
  "      name: wgs84 # default: 'wgs84'",
  "      semimajor_axis: # [m]",
  "      semiminor_axis: # [m]",
  "",
  "      # Local ENU parameters (only if ref = enu)",
  "      longitude_origin: 40.3 # longitude relative to ellipsoid [degree east]",
  "      latitude_origin: 12.6 # latitude relative to ellipsoid [degree north]",
  "      altitude_origin: 150 # height above ellipsoid [m]",
  "",
  "      # Vertical datum: Ellipsoid or Geoid [Earth Gravitational Model 84,96,2008]",
  "      # orthometric height will be transform to height above ellipsoid",
  "      vdatum: egm96 # [ellps, egm84, egm96, egm2008] default: ellps (no change)",
  "",
  "# Observers",
  "observers:",
  "  # coordinates from",
  "  # choose one between [points, file_path, grid]",
  "  points: [] # list of points [(x,y,z),(),..]",
  "  file_path: # path to file with observation points",
  "  grid:",
  "    xstart_xend_xstep: [-1.05,1.06,0.1]",
  "    ystart_yend_ystep: [-1.05,1.06,0.1]",
  "    zstart_zend_zstep: [0,1,1]",
  "  # coordinates reference system",
  "  crs:",
  "    ref: # [cart, enu, ellps] default: ellps (ellipsoid reference)",
  "",
  "    # ellispoid parameters",
  "    name: airy # default: 'wgs84'",
  "    semimajor_axis: # [m]",
  "    semiminor_axis: # [m]",
  "",
  "    # Local ENU parameters (only if ref = enu)",
  "    longitude_origin: # longitude relative to ellipsoid [degree east]",
  "    latitude_origin:  # latitude relative to ellipsoid [degree north]",
  "    altitude_origin:  # height above ellipsoid [m]"]

/-- the text of /repo/geec/cfg/config_default.yaml -/
def defaultsText : List Char := unlines (defaultsLines.map String.toList)

/-- the lines of /repo/geec/cfg/config_template.yaml:1-60 -/
def templateLines : List String := [
  "",
  "# List of Mass Bodies",
  "masses:",
  "  # Warning: indentation and hyphen (-) are required, even if there's only one",
  "  # mass.",
  "  - # coordinates from",
  "    # choose one between [points, file_path]",
  "    points: # list of points [x,y,z | lon,lat,h]",
  "      - [-0.5, -0.5, 0.0]",
  "      - [0.5, -0.5, 0.0]",
  "      - [0.5, 0.5, 0.0]",
  "      - [-0.5, 0.5, 0.0]",
  "      - [-0.5, -0.5, -1.0]",
  "      - [0.5, -0.5, -1.0]",
  "      - [0.5, 0.5, -1.0]",
  "      - [-0.5, 0.5, -1.0]",
  "    file_path: \"/path/to/file/cube.csv\" # full path to file with mass body points",
  "    density: 1000. # density of the mass body [kg m-3]",
  "    gravity_constant: 6.67408e-11 # gravity constant [m3 kg−1 s−2]",
  "    # coordinates reference system",
  "    crs:",
  "      ref: ellps # [cart, enu, ellps] default: ellps (ellipsoid reference)",
  "",
  "      # ellispoid parameters",
  "      name: # default: 'wgs84'",
  "      semimajor_axis: # [m]",
  "      semiminor_axis: # [m]",
  "",
  "      # Local ENU parameters (only if ref = enu)",
  "      longitude_origin: # longitude relative to ellipsoid [degree east]",
  "      latitude_origin:  # latitude relative to ellipsoid [degree north]",
  "      altitude_origin:  # height above ellipsoid [m]",
  "",
  "      # Vertical datum: Ellipsoid or Geoid [Earth Gravitational Model 84,96,2008]",
  "      # orthometric height will be transform to height above ellipsoid",
  "      vdatum: # [ellps, egm84, egm96, egm2008] default: ellps (no change)",
  "",
  "# Observers",
  "observers:",
  "  # coordinates from",
  "  # choose one between [points, file_path, grid]",
  "  points: [] # list of points [(x,y,z),(),..]",
  "  file_path: \"\" # path to file with observation points",
  "  grid:",
  "    xstart_xend_xstep: [-1.05,1.06,0.1]",
  "    ystart_yend_ystep: [-1.05,1.06,0.1]",
  "    zstart_zend_zstep: [0,1,1]",
  "  # coordinates reference system",
  "  crs:",
  "    ref: # [cart, enu, ellps] default: ellps (ellipsoid reference)",
  "",
  "    # ellispoid parameters",
  "    name: # default: 'wgs84'",
  "    semimajor_axis: # [m]",
  "    semiminor_axis: # [m]",
  "",
  "    # Local ENU parameters (only if ref = enu)",
  "    longitude_origin: # longitude relative to ellipsoid [degree east]",
  "    latitude_origin:  # latitude relative to ellipsoid [degree north]",
  "    altitude_origin:  # height above ellipsoid [m]"]

/-- the text of /repo/geec/cfg/config_template.yaml -/
def templateText : List Char := unlines (templateLines.map String.toList)

/-- the lines of /repo/geec/cfg/config_test.yaml:1-52 -/
def testLines : List String := [
  "",
  "# List of Mass Bodies",
  "masses:",
  "  # Warning: indentation and hyphen (-) are required, even if there's only one",
  "  # mass.",
  "  - # coordinates from",
  "    # choose one between [points, file_path]",
  "    points: # list of points [x,y,z | lon,lat,h]",
  "    file_path: \"./geec/data/cube.csv\" # full path to file with mass body points",
  "    density: 1000. # density of the mass body [kg m-3]",
  "    gravity_constant: 6.67408e-11 # gravity constant [m3 kg−1 s−2]",
  "    # coordinates reference system",
  "    crs:",
  "      ref: cart # [cart, enu, ellps] default: ellps (ellipsoid reference)",
  "",
  "      # ellispoid parameters",
  "      name: # default: 'wgs84'",
  "      semimajor_axis: # [m]",
  "      semiminor_axis: # [m]",
  "",
  "      # Local ENU parameters (only if ref = enu)",
  "      longitude_origin: # longitude relative to ellipsoid [degree east]",
  "      latitude_origin:  # latitude relative to ellipsoid [degree north]",
  "      altitude_origin:  # height above ellipsoid [m]",
  "",
  "      # Vertical datum: Ellipsoid or Geoid [Earth Gravitational Model 84,96,2008]",
  "      # orthometric height will be transform to height above ellipsoid",
  "      vdatum: # [ellps, egm84, egm96, egm2008] default: ellps (no change)",
  "",
  "# Observers",
  "observers:",
  "  # coordinates from",
  "  # choose one between [points, file_path, grid]",
  "  points: [] # list of points [(x,y,z),(),..]",
  "  file_path: # path to file with observation points",
  "  grid:",
  "    xstart_xend_xstep: [-1.05,1.06,0.1]",
  "    ystart_yend_ystep: [-1.05,1.06,0.1]",
  "    zstart_zend_zstep: [0,1,1]",
  "  # coordinates reference system",
  "  crs:",
  "    ref: cart # [cart, enu, ellps] default: ellps (ellipsoid reference)",
  "",
  "    # ellispoid parameters",
  "    name: airy # default: 'wgs84'",
  "    semimajor_axis: # [m]",
  "    semiminor_axis: # [m]",
  "",
  "    # Local ENU parameters (only if ref = enu)",
  "    longitude_origin: # longitude relative to ellipsoid [degree east]",
  "    latitude_origin:  # latitude relative to ellipsoid [degree north]",
  "    altitude_origin:  # height above ellipsoid [m]"]

/-- the text of /repo/geec/cfg/config_test.yaml -/
def testText : List Char := unlines (testLines.map String.toList)

end Geec
