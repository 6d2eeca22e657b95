import Verif.Model.Database

/-! Generated by tools/gen_db.py from net/echonet/database_mra_objects.go: the calls of
`initObjects` (lines 36-1249), in order. -/

namespace Verif.Model.Mra

/-- database_mra_objects.go:40-71 -/
def obj0000 : RawObj where
  clsName := "Super class"
  grpCode := 0x00
  clsCode := 0x00
  props := [
    ⟨0x80, "Operation status", .required, .optional, .required⟩,
    ⟨0x81, "Installation location", .required, .required, .required⟩,
    ⟨0x81, "Installation location", .required, .required, .required⟩,
    ⟨0x82, "Standard version information", .required, .notApplicable, .optional⟩,
    ⟨0x83, "Identification number", .optional, .optional, .optional⟩,
    ⟨0x83, "Identification number", .optional, .notApplicable, .optional⟩,
    ⟨0x84, "Measured instantaneous power consumption", .optional, .notApplicable, .optional⟩,
    ⟨0x85, "Measured cumulative electric energy consumption", .optional, .notApplicable, .optional⟩,
    ⟨0x86, "Manufacturer's fault code", .optional, .notApplicable, .optional⟩,
    ⟨0x87, "Current limit setting", .optional, .optional, .optional⟩,
    ⟨0x88, "Fault status", .required, .notApplicable, .required⟩,
    ⟨0x89, "Fault description", .optional, .notApplicable, .optional⟩,
    ⟨0x8A, "manufacturer code", .required, .notApplicable, .optional⟩,
    ⟨0x8A, "Manufacturer code", .required, .notApplicable, .optional⟩,
    ⟨0x8B, "Business facility code", .optional, .notApplicable, .optional⟩,
    ⟨0x8C, "Product code", .optional, .notApplicable, .optional⟩,
    ⟨0x8D, "Production number", .optional, .notApplicable, .optional⟩,
    ⟨0x8E, "Production date", .optional, .notApplicable, .optional⟩,
    ⟨0x8F, "Power-saving operation setting", .optional, .optional, .optional⟩,
    ⟨0x93, "Location information", .optional, .optional, .optional⟩,
    ⟨0x93, "Location information", .optional, .optional, .required⟩,
    ⟨0x93, "Remote control setting", .optional, .optional, .optional⟩,
    ⟨0x93, "Remote control setting", .optional, .optional, .optional⟩,
    ⟨0x97, "Current time setting", .optional, .optional, .optional⟩,
    ⟨0x98, "Current date setting", .optional, .optional, .optional⟩,
    ⟨0x99, "Power limit setting", .optional, .optional, .optional⟩,
    ⟨0x9A, "Cumulative operating time", .optional, .notApplicable, .optional⟩,
    ⟨0x9D, "Status change announcement property map", .required, .notApplicable, .optional⟩,
    ⟨0x9E, "Set property map", .required, .notApplicable, .optional⟩,
    ⟨0x9F, "Get property map", .required, .notApplicable, .optional⟩]

/-- database_mra_objects.go:74-94 -/
def obj0EF0 : RawObj where
  clsName := "Node profile"
  grpCode := 0x0E
  clsCode := 0xF0
  props := [
    ⟨0x80, "Operating status", .required, .notApplicable, .required⟩,
    ⟨0x82, "Version information", .required, .notApplicable, .optional⟩,
    ⟨0x83, "Identification number", .required, .notApplicable, .optional⟩,
    ⟨0x88, "Fault status", .optional, .notApplicable, .optional⟩,
    ⟨0x89, "Fault description", .optional, .notApplicable, .optional⟩,
    ⟨0x8A, "Manufacturer code", .required, .notApplicable, .optional⟩,
    ⟨0x8B, "Business facility code", .optional, .notApplicable, .optional⟩,
    ⟨0x8C, "Product code", .optional, .notApplicable, .optional⟩,
    ⟨0x8D, "Production number", .optional, .notApplicable, .optional⟩,
    ⟨0x8E, "Production date", .optional, .notApplicable, .optional⟩,
    ⟨0x9D, "Status change announcement property map", .required, .notApplicable, .optional⟩,
    ⟨0x9E, "Set property map", .required, .notApplicable, .optional⟩,
    ⟨0x9F, "Get property map", .required, .notApplicable, .optional⟩,
    ⟨0xBF, "Unique identifier data", .optional, .optional, .optional⟩,
    ⟨0xD3, "Number of self-node instances", .required, .notApplicable, .optional⟩,
    ⟨0xD4, "Number of self-node classes", .required, .notApplicable, .optional⟩,
    ⟨0xD5, "Instance list notification", .optional, .notApplicable, .required⟩,
    ⟨0xD6, "Self-node instance list S", .required, .notApplicable, .optional⟩,
    ⟨0xD7, "Self-node class list S", .required, .notApplicable, .optional⟩]

/-- database_mra_objects.go:97-108 -/
def obj02A6 : RawObj where
  clsName := "Hybrid water heater"
  grpCode := 0x02
  clsCode := 0xA6
  props := [
    ⟨0xB0, "Automatic water heating setting", .optional, .optional, .required⟩,
    ⟨0xB2, "Water heating status", .optional, .notApplicable, .required⟩,
    ⟨0xB3, "Heater status", .optional, .notApplicable, .required⟩,
    ⟨0xB6, "Hot water supply mode setting for auxiliary heat source machine", .optional, .optional, .optional⟩,
    ⟨0xB7, "Heater mode setting for auxiliary heat source machine.", .optional, .optional, .optional⟩,
    ⟨0xB8, "Linkage mode setting for solar power generation", .required, .required, .required⟩,
    ⟨0xB9, "Solar power generations utilization time", .optional, .optional, .optional⟩,
    ⟨0xC3, "Hot water supply status", .optional, .notApplicable, .required⟩,
    ⟨0xE1, "Measured amount of hot water remaining in tank", .optional, .notApplicable, .optional⟩,
    ⟨0xE2, "Tank capacity", .optional, .notApplicable, .optional⟩]

/-- database_mra_objects.go:111-113 -/
def obj05FD : RawObj where
  clsName := "Switch (supporting JEM-A/HA terminals)"
  grpCode := 0x05
  clsCode := 0xFD
  props := [
    ⟨0xE0, "Connected device", .optional, .optional, .optional⟩]

/-- database_mra_objects.go:116-145 -/
def obj0272 : RawObj where
  clsName := "Instantaneous water heater"
  grpCode := 0x02
  clsCode := 0x72
  props := [
    ⟨0x90, "ON timer reservation setting", .optional, .optional, .optional⟩,
    ⟨0x91, "ON timer setting", .optional, .optional, .optional⟩,
    ⟨0x92, "Set value of ON timer relative time", .optional, .optional, .optional⟩,
    ⟨0xD0, "Hot water heating status", .required, .notApplicable, .optional⟩,
    ⟨0xD1, "Set value of hot water temperature", .optional, .optional, .optional⟩,
    ⟨0xD2, "Hot water warmer setting", .optional, .optional, .optional⟩,
    ⟨0xD4, "Bath water volume setting 4", .optional, .optional, .optional⟩,
    ⟨0xD5, "Bath water volume setting 4 Maximum settable level", .optional, .notApplicable, .optional⟩,
    ⟨0xD6, "Volume setting", .optional, .optional, .optional⟩,
    ⟨0xD7, "Mute setting", .optional, .optional, .optional⟩,
    ⟨0xDA, "Duration of Automatic operation setting", .optional, .optional, .optional⟩,
    ⟨0xDB, "Remaining Automatic operation time", .optional, .notApplicable, .optional⟩,
    ⟨0xE1, "Set value of bath temperature", .optional, .optional, .optional⟩,
    ⟨0xE2, "Bath water heater status", .required, .notApplicable, .optional⟩,
    ⟨0xE3, "Bath Auto mode setting", .requiredO, .requiredO, .optional⟩,
    ⟨0xE4, "Bath additional boil-up operation setting", .optional, .optional, .optional⟩,
    ⟨0xE5, "Bath hot water adding operation setting", .optional, .optional, .optional⟩,
    ⟨0xE6, "Bath water temperature lowering operation setting", .optional, .optional, .optional⟩,
    ⟨0xE7, "Bath hot water volume setting 1", .optional, .optional, .optional⟩,
    ⟨0xE8, "Bath hot water volume setting 2", .optional, .optional, .optional⟩,
    ⟨0xE9, "Bathroom priority setting", .optional, .optional, .optional⟩,
    ⟨0xE9, "Bathroom priority setting", .optional, .notApplicable, .optional⟩,
    ⟨0xEA, "Shower hot water supply status", .optional, .notApplicable, .optional⟩,
    ⟨0xEB, "Kitchen hot water supply status", .optional, .notApplicable, .optional⟩,
    ⟨0xEC, "Hot water warmer ON timer reservation setting", .optional, .optional, .optional⟩,
    ⟨0xED, "Set value of hot water warmer ON timer time", .optional, .optional, .optional⟩,
    ⟨0xEE, "Bath hot water volume setting 3", .optional, .optional, .optional⟩,
    ⟨0xEF, "Bath operation status monitor", .optional, .notApplicable, .required⟩]

/-- database_mra_objects.go:148-172 -/
def obj03CE : RawObj where
  clsName := "Commercial showcase"
  grpCode := 0x03
  clsCode := 0xCE
  props := [
    ⟨0xB0, "Operation mode", .required, .required, .required⟩,
    ⟨0xB0, "Operation mode setting", .required, .required, .required⟩,
    ⟨0xBD, "Used to acquire measurements of discharge temperature.", .optional, .notApplicable, .optional⟩,
    ⟨0xCA, "Group information", .optional, .optional, .optional⟩,
    ⟨0xCA, "Group information", .required, .optional, .optional⟩,
    ⟨0xD0, "This property indicates the type of the showcase.", .required, .notApplicable, .optional⟩,
    ⟨0xD1, "This property indicates the type of the showcase door.", .required, .notApplicable, .optional⟩,
    ⟨0xD2, "This property indicates refrigerator type, such as built-in or separate.", .required, .notApplicable, .optional⟩,
    ⟨0xD3, "This property indicates the shape of the showcase.", .required, .notApplicable, .optional⟩,
    ⟨0xD4, "This property indicates the purpose of the showcase, either refrigeration or freezing.", .required, .notApplicable, .optional⟩,
    ⟨0xE0, "Indicates on/off status of lighting installed inside the showcase.", .required, .optional, .required⟩,
    ⟨0xE1, "Indicates ON/OFF status of lighting installed outside the showcase.", .optional, .optional, .required⟩,
    ⟨0xE2, "Indicates on/off status of compressor when showcase and compressor are a single unit.", .optional, .optional, .optional⟩,
    ⟨0xE3, "Used to acquire internal temperature measurements inside the showcase.", .required, .notApplicable, .optional⟩,
    ⟨0xE4, "Indicates rated power consumption necessary when showcase is cooling.", .optional, .notApplicable, .optional⟩,
    ⟨0xE5, "Indicates rated power consumption when heater is operating during showcase defrosting.", .optional, .notApplicable, .optional⟩,
    ⟨0xE6, "Indicates rated power consumption when showcase is operating fan motor.", .optional, .notApplicable, .optional⟩,
    ⟨0xE7, "Indicates on/off status of showcases with heater for hot function.", .required, .notApplicable, .optional⟩,
    ⟨0xEB, "Indicates type of lighting installed inside the showcase.", .optional, .notApplicable, .optional⟩,
    ⟨0xEC, "Indicates type of lighting installed outside the showcase.", .optional, .notApplicable, .optional⟩,
    ⟨0xED, "Indicates lighting level in % installed inside of the showcase.", .optional, .optional, .optional⟩,
    ⟨0xEE, "Indicates lighting level in % installed outside of the showcase.", .optional, .optional, .optional⟩,
    ⟨0xEF, "Set temperature setting of inside the case and acquire the current setting.", .required, .required, .optional⟩]

/-- database_mra_objects.go:175-178 -/
def obj00D0 : RawObj where
  clsName := "Illuminance sensor"
  grpCode := 0x00
  clsCode := 0xD0
  props := [
    ⟨0xE0, "Measured illuminance value 1", .requiredC, .notApplicable, .optional⟩,
    ⟨0xE1, "Measured illuminance value 2", .requiredC, .notApplicable, .optional⟩]

/-- database_mra_objects.go:181-188 -/
def obj0602 : RawObj where
  clsName := "Television"
  grpCode := 0x06
  clsCode := 0x02
  props := [
    ⟨0x80, "Operation status", .required, .requiredO, .required⟩,
    ⟨0xB0, "Display control setting", .optional, .optional, .optional⟩,
    ⟨0xB1, "Character string setting acceptance status", .requiredO, .notApplicable, .required⟩,
    ⟨0xB2, "Supported character codes", .requiredO, .notApplicable, .optional⟩,
    ⟨0xB3, "Character string to present to the user", .optional, .required, .optional⟩,
    ⟨0xB4, "Length of character string accepted", .requiredO, .notApplicable, .optional⟩]

/-- database_mra_objects.go:191-252 -/
def obj027E : RawObj where
  clsName := "EV charger and discharger"
  grpCode := 0x02
  clsCode := 0x7E
  props := [
    ⟨0x89, "Fault description", .required, .notApplicable, .optional⟩,
    ⟨0x8C, "Product code", .required, .notApplicable, .optional⟩,
    ⟨0xC0, "Dischargeable capacity of vehicle mounted battery 1", .required, .notApplicable, .optional⟩,
    ⟨0xC1, "Dischargeable capacity of vehicle mounted battery 2", .requiredC, .notApplicable, .optional⟩,
    ⟨0xC1, "Dischargeable capacity of vehicle mounted battery 2", .optional, .notApplicable, .optional⟩,
    ⟨0xC2, "Remaining dischargeable capacity of vehicle mounted battery 1", .required, .notApplicable, .optional⟩,
    ⟨0xC3, "Remaining dischargeable capacity of vehicle mounted battery 2", .requiredC, .notApplicable, .optional⟩,
    ⟨0xC3, "Remaining dischargeable capacity of vehicle mounted battery 2", .optional, .notApplicable, .optional⟩,
    ⟨0xC4, "Remaining dischargeable capacity of vehicle mounted battery 3", .required, .notApplicable, .optional⟩,
    ⟨0xC5, "Rated charge capacity", .required, .notApplicable, .optional⟩,
    ⟨0xC6, "Rated discharge capacity", .required, .notApplicable, .optional⟩,
    ⟨0xC7, "Vehicle connection and chargeable/dischargeable status", .required, .notApplicable, .required⟩,
    ⟨0xC7, "Vehicle connection and chargeable/dischargeable status", .required, .notApplicable, .required⟩,
    ⟨0xC7, "Vehicle connection and chargeable/dischargeable status", .required, .notApplicable, .required⟩,
    ⟨0xC8, "Minimum/maximum charging electric energy", .required, .notApplicable, .optional⟩,
    ⟨0xC9, "Minimum/maximum discharging electric energy", .required, .notApplicable, .optional⟩,
    ⟨0xCA, "Minimum/maximum charging current", .required, .notApplicable, .optional⟩,
    ⟨0xCB, "Minimum/maximum discharging current", .required, .notApplicable, .optional⟩,
    ⟨0xCC, "Charger/Discharger type", .required, .notApplicable, .optional⟩,
    ⟨0xCD, "Vehicle connection confirmation", .notApplicable, .required, .notApplicable⟩,
    ⟨0xCE, "Chargeable capacity of vehicle mounted battery", .required, .notApplicable, .optional⟩,
    ⟨0xCF, "Remaining chargeable capacity of vehicle mounted battery", .required, .notApplicable, .optional⟩,
    ⟨0xD0, "Used capacity of vehicle mounted battery 1", .required, .notApplicable, .optional⟩,
    ⟨0xD1, "Used capacity of vehicle mounted battery 2", .requiredC, .notApplicable, .optional⟩,
    ⟨0xD1, "Used capacity of vehicle mounted battery 2", .optional, .notApplicable, .optional⟩,
    ⟨0xD2, "Rated voltage", .optional, .notApplicable, .optional⟩,
    ⟨0xD3, "Measured instantaneous charging/discharging electric energy", .optional, .notApplicable, .optional⟩,
    ⟨0xD4, "Measured instantaneous charging/discharging current", .optional, .notApplicable, .optional⟩,
    ⟨0xD5, "Measured instantaneous charging/discharging voltage", .optional, .notApplicable, .optional⟩,
    ⟨0xD6, "Measured cumulative amount of discharging electric energy", .optional, .notApplicable, .optional⟩,
    ⟨0xD7, "Cumulative amount of discharging electric energy reset setting", .notApplicable, .optional, .notApplicable⟩,
    ⟨0xD8, "Measured cumulative amount of charging electric energy", .optional, .notApplicable, .optional⟩,
    ⟨0xD9, "Cumulative amount of charging electric energy reset setting", .notApplicable, .optional, .notApplicable⟩,
    ⟨0xDA, "Operation mode setting", .required, .required, .required⟩,
    ⟨0xDA, "Operation mode setting", .required, .required, .required⟩,
    ⟨0xDA, "Operation mode setting", .required, .required, .required⟩,
    ⟨0xDA, "Operation mode setting", .required, .required, .required⟩,
    ⟨0xDB, "System interconnected type", .optional, .notApplicable, .optional⟩,
    ⟨0xDC, "Charging method", .required, .optional, .required⟩,
    ⟨0xDC, "Charging method", .required, .optional, .required⟩,
    ⟨0xDD, "Discharging method", .required, .optional, .required⟩,
    ⟨0xDD, "Discharging method", .required, .optional, .required⟩,
    ⟨0xDE, "Purchasing electric power setting", .optional, .optional, .optional⟩,
    ⟨0xDF, "Re-interconnection permission setting", .optional, .optional, .optional⟩,
    ⟨0xE0, "Charging/Discharging electric power setting", .optional, .optional, .optional⟩,
    ⟨0xE1, "Actual operation mode", .optional, .notApplicable, .required⟩,
    ⟨0xE2, "Remaining stored electricity of vehicle mounted battery1", .required, .notApplicable, .optional⟩,
    ⟨0xE3, "Remaining stored electricity of vehicle mounted battery2", .requiredC, .notApplicable, .optional⟩,
    ⟨0xE3, "Remaining stored electricity of vehicle mounted battery2", .optional, .notApplicable, .optional⟩,
    ⟨0xE4, "Remaining stored electricity of vehicle mounted battery3", .required, .notApplicable, .optional⟩,
    ⟨0xE5, "Maintenance status", .optional, .notApplicable, .required⟩,
    ⟨0xE6, "Vehicle ID", .required, .notApplicable, .optional⟩,
    ⟨0xE7, "Charging amount setting 1", .optional, .optional, .optional⟩,
    ⟨0xE9, "Charging amount setting 2", .optional, .optional, .optional⟩,
    ⟨0xEA, "Discharging electric energy setting", .optional, .optional, .optional⟩,
    ⟨0xEB, "Charging electric energy setting", .optional, .optional, .optional⟩,
    ⟨0xEC, "Discharging electric energy setting", .optional, .optional, .optional⟩,
    ⟨0xED, "Charging current setting", .optional, .optional, .optional⟩,
    ⟨0xEE, "Discharging current setting", .optional, .optional, .optional⟩,
    ⟨0xEF, "Rated voltage (Independent)", .optional, .notApplicable, .optional⟩]

/-- database_mra_objects.go:255-264 -/
def obj0157 : RawObj where
  clsName := "Package-type commercial air conditioner (outdoor unit)"
  grpCode := 0x01
  clsCode := 0x57
  props := [
    ⟨0xAB, "Special state", .optional, .notApplicable, .optional⟩,
    ⟨0xB8, "Rated power consumption of outdoor unit", .optional, .notApplicable, .optional⟩,
    ⟨0xBE, "Measured outdoor unit temperature", .optional, .notApplicable, .optional⟩,
    ⟨0xCA, "Group information", .required, .notApplicable, .optional⟩,
    ⟨0xDB, "Measured power consumption of outdoor unit", .required, .notApplicable, .optional⟩,
    ⟨0xDD, "Possible power savings for outdoor units", .required, .notApplicable, .optional⟩,
    ⟨0xDE, "Settings restricting power consumption of outdoor units", .required, .required, .optional⟩,
    ⟨0xDF, "Minimum power consumption for restricted outdoor unit", .optional, .notApplicable, .optional⟩]

/-- database_mra_objects.go:267-269 -/
def obj0012 : RawObj where
  clsName := "Humidity sensor"
  grpCode := 0x00
  clsCode := 0x12
  props := [
    ⟨0xE0, "Measured value of relative humidity", .required, .notApplicable, .optional⟩]

/-- database_mra_objects.go:272-275 -/
def obj0291 : RawObj where
  clsName := "Mono functional lighting"
  grpCode := 0x02
  clsCode := 0x91
  props := [
    ⟨0x80, "Operation status", .required, .required, .required⟩,
    ⟨0xB0, "Light level Setting", .optional, .optional, .optional⟩]

/-- database_mra_objects.go:278-335 -/
def obj0287 : RawObj where
  clsName := "Power distribution board metering"
  grpCode := 0x02
  clsCode := 0x87
  props := [
    ⟨0xB0, "Master rated capacity", .optional, .notApplicable, .optional⟩,
    ⟨0xB1, "Number of measurement channels (simplex)", .optional, .notApplicable, .optional⟩,
    ⟨0xB2, "Channel range specification for cumulative amount of electric power consumption measurement (simplex)", .optional, .optional, .optional⟩,
    ⟨0xB3, "Measured cumulative amount of electric power consumption list (simplex)", .optional, .notApplicable, .optional⟩,
    ⟨0xB4, "Channel range specification for instantaneous current measurement (simplex)", .optional, .optional, .optional⟩,
    ⟨0xB5, "Measured instantaneous current list (simplex)", .optional, .notApplicable, .optional⟩,
    ⟨0xB6, "Channel range specification for instantaneous power consumption measurement (simplex)", .optional, .optional, .optional⟩,
    ⟨0xB7, "Measured instantaneous power consumption list (simplex)", .optional, .notApplicable, .optional⟩,
    ⟨0xB8, "Number of measurement channels (duplex)", .optional, .notApplicable, .optional⟩,
    ⟨0xB9, "Channel range specification for cumulative amount of electric power consumption measurement (duplex)", .optional, .optional, .optional⟩,
    ⟨0xBA, "Measured cumulative amount of electric power consumption list (duplex)", .optional, .notApplicable, .optional⟩,
    ⟨0xBB, "Channel range specification for instantaneous current measurement (duplex)", .optional, .optional, .optional⟩,
    ⟨0xBC, "Measured instantaneous current list (duplex)", .optional, .notApplicable, .optional⟩,
    ⟨0xBD, "Channel range specification for instantaneous power consumption measurement (duplex)", .optional, .optional, .optional⟩,
    ⟨0xBE, "Measured instantaneous power consumption list (duplex)", .optional, .notApplicable, .optional⟩,
    ⟨0xC0, "Measured cumulative amount of electric energy (normal direction)", .required, .notApplicable, .optional⟩,
    ⟨0xC1, "Measured cumulative amount of electric energy (reverse direction)", .required, .notApplicable, .optional⟩,
    ⟨0xC2, "Unit for cumulative amounts of electric energy", .required, .notApplicable, .optional⟩,
    ⟨0xC3, "Historical data of measured cumulative amounts of electric energy (normal direction)", .optional, .notApplicable, .optional⟩,
    ⟨0xC4, "Historical data of measured cumulative amounts of electric energy (reverse direction)", .optional, .notApplicable, .optional⟩,
    ⟨0xC5, "Day for which the historical data of measured cumulative amounts of electric energy is to be retrieved", .optional, .optional, .optional⟩,
    ⟨0xC6, "Measured instantaneous amount of electric energy", .optional, .notApplicable, .optional⟩,
    ⟨0xC7, "Measured instantaneous currents", .optional, .notApplicable, .optional⟩,
    ⟨0xC8, "Measured instantaneous voltages", .optional, .notApplicable, .optional⟩,
    ⟨0xD0, "Measurement channel 1", .optional, .notApplicable, .optional⟩,
    ⟨0xD1, "Measurement channel 2", .optional, .notApplicable, .optional⟩,
    ⟨0xD2, "Measurement channel 3", .optional, .notApplicable, .optional⟩,
    ⟨0xD3, "Measurement channel 4", .optional, .notApplicable, .optional⟩,
    ⟨0xD4, "Measurement channel 5", .optional, .notApplicable, .optional⟩,
    ⟨0xD5, "Measurement channel 6", .optional, .notApplicable, .optional⟩,
    ⟨0xD6, "Measurement channel 7", .optional, .notApplicable, .optional⟩,
    ⟨0xD7, "Measurement channel 8", .optional, .notApplicable, .optional⟩,
    ⟨0xD8, "Measurement channel 9", .optional, .notApplicable, .optional⟩,
    ⟨0xD9, "Measurement channel 10", .optional, .notApplicable, .optional⟩,
    ⟨0xDA, "Measurement channel 11", .optional, .notApplicable, .optional⟩,
    ⟨0xDB, "Measurement channel 12", .optional, .notApplicable, .optional⟩,
    ⟨0xDC, "Measurement channel 13", .optional, .notApplicable, .optional⟩,
    ⟨0xDD, "Measurement channel 14", .optional, .notApplicable, .optional⟩,
    ⟨0xDE, "Measurement channel 15", .optional, .notApplicable, .optional⟩,
    ⟨0xDF, "Measurement channel 16", .optional, .notApplicable, .optional⟩,
    ⟨0xE0, "Measurement channel 17", .optional, .notApplicable, .optional⟩,
    ⟨0xE1, "Measurement channel 18", .optional, .notApplicable, .optional⟩,
    ⟨0xE2, "Measurement channel 19", .optional, .notApplicable, .optional⟩,
    ⟨0xE3, "Measurement channel 20", .optional, .notApplicable, .optional⟩,
    ⟨0xE4, "Measurement channel 21", .optional, .notApplicable, .optional⟩,
    ⟨0xE5, "Measurement channel 22", .optional, .notApplicable, .optional⟩,
    ⟨0xE6, "Measurement channel 23", .optional, .notApplicable, .optional⟩,
    ⟨0xE7, "Measurement channel 24", .optional, .notApplicable, .optional⟩,
    ⟨0xE8, "Measurement channel 25", .optional, .notApplicable, .optional⟩,
    ⟨0xE9, "Measurement channel 26", .optional, .notApplicable, .optional⟩,
    ⟨0xEA, "Measurement channel 27", .optional, .notApplicable, .optional⟩,
    ⟨0xEB, "Measurement channel 28", .optional, .notApplicable, .optional⟩,
    ⟨0xEC, "Measurement channel 29", .optional, .notApplicable, .optional⟩,
    ⟨0xED, "Measurement channel 30", .optional, .notApplicable, .optional⟩,
    ⟨0xEE, "Measurement channel 31", .optional, .notApplicable, .optional⟩,
    ⟨0xEF, "Measurement channel 32", .optional, .notApplicable, .optional⟩]

/-- database_mra_objects.go:338-390 -/
def obj026B : RawObj where
  clsName := "Electric water heater"
  grpCode := 0x02
  clsCode := 0x6B
  props := [
    ⟨0x90, "ON timer setting", .optional, .optional, .optional⟩,
    ⟨0x91, "ON timer setting", .optional, .optional, .optional⟩,
    ⟨0xB0, "Automatic water heating setting", .required, .required, .optional⟩,
    ⟨0xB0, "Automatic water heating setting", .required, .required, .required⟩,
    ⟨0xB1, "Automatic water temperature control setting", .optional, .optional, .optional⟩,
    ⟨0xB2, "Water heater status", .optional, .notApplicable, .optional⟩,
    ⟨0xB2, "Water heater status", .required, .notApplicable, .required⟩,
    ⟨0xB3, "Water heating temperature setting", .optional, .optional, .optional⟩,
    ⟨0xB4, "Manual water heating stop days setting", .optional, .optional, .optional⟩,
    ⟨0xB5, "Relative time setting value for manual water heating OFF", .optional, .optional, .optional⟩,
    ⟨0xB6, "Tank operation mode setting", .optional, .optional, .optional⟩,
    ⟨0xC0, "Daytime reheating permission setting", .optional, .optional, .optional⟩,
    ⟨0xC0, "Daytime reheating permission setting", .required, .required, .optional⟩,
    ⟨0xC1, "Measured temperature of water in water heater", .optional, .notApplicable, .optional⟩,
    ⟨0xC2, "Alarm status", .optional, .notApplicable, .required⟩,
    ⟨0xC3, "Hot water supply status", .required, .notApplicable, .required⟩,
    ⟨0xC4, "Relative time setting for keeping bath temperature", .optional, .optional, .optional⟩,
    ⟨0xC7, "Participation in energy shift", .required, .required, .optional⟩,
    ⟨0xC8, "Standard time to start heating", .required, .notApplicable, .optional⟩,
    ⟨0xC9, "Number of energy shifts", .required, .notApplicable, .optional⟩,
    ⟨0xCA, "Daytime heating shift time 1", .required, .required, .optional⟩,
    ⟨0xCB, "Expected electric energy at daytime heating shift time 1", .required, .notApplicable, .optional⟩,
    ⟨0xCC, "Consumption of electric energy per hour 1", .required, .notApplicable, .optional⟩,
    ⟨0xCD, "Daytime heating shift time 2", .required, .required, .optional⟩,
    ⟨0xCE, "Expected electric energy at daytime heating shift time 2", .required, .notApplicable, .optional⟩,
    ⟨0xCF, "Consumption of electric energy per hour 2", .required, .notApplicable, .optional⟩,
    ⟨0xD1, "Temperature of supplied water setting", .optional, .optional, .optional⟩,
    ⟨0xD3, "Bath water temperature setting", .optional, .optional, .optional⟩,
    ⟨0xD4, "Bath water volume setting4", .optional, .optional, .optional⟩,
    ⟨0xD5, "Bath water volume setting4 maximum settable level", .optional, .notApplicable, .optional⟩,
    ⟨0xD6, "Volume setting", .optional, .optional, .optional⟩,
    ⟨0xD7, "Mute setting", .optional, .optional, .optional⟩,
    ⟨0xD8, "Remaining hot water volume", .optional, .notApplicable, .optional⟩,
    ⟨0xD9, "Surplus electric energy power prediction value", .optional, .optional, .optional⟩,
    ⟨0xDB, "Rated power consumption of H/P unit in wintertime", .optional, .notApplicable, .optional⟩,
    ⟨0xDC, "Rated power consumption of H/P unit in in-between seasons", .optional, .notApplicable, .optional⟩,
    ⟨0xDD, "Rated power consumption of H/P unit in summertime", .optional, .notApplicable, .optional⟩,
    ⟨0xE0, "Bath water volume setting", .optional, .optional, .optional⟩,
    ⟨0xE1, "Measured amount of water remaining in tank", .optional, .notApplicable, .optional⟩,
    ⟨0xE2, "Tank capacity", .optional, .notApplicable, .optional⟩,
    ⟨0xE3, "Automatic Bath Water Heating Mode Setting", .requiredO, .requiredO, .optional⟩,
    ⟨0xE4, "Manual bath reheating operation setting", .optional, .optional, .optional⟩,
    ⟨0xE5, "Addition of hot water function setting", .optional, .optional, .optional⟩,
    ⟨0xE5, "Manual bath hot water addition function setting", .optional, .optional, .optional⟩,
    ⟨0xE6, "Slight bath water temperature lowering function setting", .optional, .optional, .optional⟩,
    ⟨0xE6, "Manual lukewarm water temperature lowering function setting.", .optional, .optional, .optional⟩,
    ⟨0xE7, "Bath water volume setting 1", .optional, .optional, .optional⟩,
    ⟨0xE8, "Bath water volume setting 2", .optional, .optional, .optional⟩,
    ⟨0xE9, "Bathroom priority setting", .optional, .notApplicable, .optional⟩,
    ⟨0xEA, "Bath Operation Status Monitor", .optional, .notApplicable, .required⟩,
    ⟨0xEE, "Bath water volume setting 3", .optional, .optional, .optional⟩]

/-- database_mra_objects.go:393-418 -/
def obj0290 : RawObj where
  clsName := "General lighting"
  grpCode := 0x02
  clsCode := 0x90
  props := [
    ⟨0x80, "Operation status", .required, .required, .required⟩,
    ⟨0x90, "ON timer reservation setting", .optional, .optional, .optional⟩,
    ⟨0x91, "ON timer setting", .optional, .optional, .optional⟩,
    ⟨0x94, "OFF timer reservation setting", .optional, .optional, .optional⟩,
    ⟨0x95, "Time set by OFF timer", .optional, .optional, .optional⟩,
    ⟨0xB0, "Light level", .optional, .optional, .optional⟩,
    ⟨0xB1, "Light color setting", .optional, .optional, .optional⟩,
    ⟨0xB1, "Light color setting", .optional, .optional, .optional⟩,
    ⟨0xB1, "Light color setting", .optional, .optional, .optional⟩,
    ⟨0xB2, "Light level step setting", .optional, .optional, .optional⟩,
    ⟨0xB3, "Light color step setting", .optional, .optional, .optional⟩,
    ⟨0xB4, "Maximum specifiable values", .optional, .notApplicable, .optional⟩,
    ⟨0xB5, "Maximum value of settable level for night lighting", .optional, .notApplicable, .optional⟩,
    ⟨0xB6, "Lighting mode setting", .required, .required, .optional⟩,
    ⟨0xB7, "Light level setting for main lighting", .optional, .optional, .optional⟩,
    ⟨0xB8, "Light level step setting for main lighting", .optional, .optional, .optional⟩,
    ⟨0xB9, "Light level setting for night lighting", .optional, .optional, .optional⟩,
    ⟨0xBA, "Light level step setting for night lighting", .optional, .optional, .optional⟩,
    ⟨0xBB, "Light color setting for main lighting", .optional, .optional, .optional⟩,
    ⟨0xBC, "Light color level step setting for main lighting", .optional, .optional, .optional⟩,
    ⟨0xBD, "Light color setting for night lighting", .optional, .optional, .optional⟩,
    ⟨0xBE, "Light color level step setting for night lighting", .optional, .optional, .optional⟩,
    ⟨0xBF, "Lighting mode status in auto mode", .optional, .notApplicable, .optional⟩,
    ⟨0xC0, "RGB setting for color lighting", .optional, .optional, .optional⟩]

/-- database_mra_objects.go:421-491 -/
def obj027D : RawObj where
  clsName := "Storage battery"
  grpCode := 0x02
  clsCode := 0x7D
  props := [
    ⟨0x83, "Identification number", .optional, .notApplicable, .optional⟩,
    ⟨0x89, "Fault description", .required, .notApplicable, .optional⟩,
    ⟨0x8C, "Product code", .required, .notApplicable, .optional⟩,
    ⟨0x97, "Current time setting", .required, .optional, .optional⟩,
    ⟨0x98, "Current date setting", .required, .optional, .optional⟩,
    ⟨0xA0, "AC effective capacity (charging)", .required, .notApplicable, .optional⟩,
    ⟨0xA1, "AC effective capacity (discharging)", .required, .notApplicable, .optional⟩,
    ⟨0xA2, "AC chargeable capacity", .required, .notApplicable, .optional⟩,
    ⟨0xA3, "AC dischargeable capacity", .required, .notApplicable, .optional⟩,
    ⟨0xA4, "AC chargeable electric energy", .required, .notApplicable, .optional⟩,
    ⟨0xA5, "AC dischargeable electric energy", .required, .notApplicable, .optional⟩,
    ⟨0xA6, "AC charge upper limit setting", .optional, .optional, .optional⟩,
    ⟨0xA7, "AC discharge lower limit setting", .optional, .optional, .optional⟩,
    ⟨0xA8, "AC measured cumulative charging electric energy", .required, .notApplicable, .optional⟩,
    ⟨0xA9, "AC measured cumulative discharging electric energy", .required, .notApplicable, .optional⟩,
    ⟨0xAA, "AC charge amount setting value", .required, .required, .required⟩,
    ⟨0xAB, "AC discharge amount setting value", .required, .required, .required⟩,
    ⟨0xC1, "Charging method", .required, .optional, .required⟩,
    ⟨0xC2, "Discharging method", .required, .optional, .required⟩,
    ⟨0xC7, "AC rated electric energy", .optional, .notApplicable, .optional⟩,
    ⟨0xC8, "Minimum/maximum charging electric power", .optional, .notApplicable, .optional⟩,
    ⟨0xC8, "Minimum/maximum charging electric power", .required, .notApplicable, .optional⟩,
    ⟨0xC9, "Minimum/maximum discharging electric power", .optional, .notApplicable, .optional⟩,
    ⟨0xC9, "Minimum/maximum discharging electric power", .required, .notApplicable, .optional⟩,
    ⟨0xCA, "Minimum/maximum charging current", .optional, .notApplicable, .optional⟩,
    ⟨0xCB, "Minimum/maximum discharging current", .optional, .notApplicable, .optional⟩,
    ⟨0xCC, "Re-interconnection permission setting", .optional, .optional, .optional⟩,
    ⟨0xCD, "Operation permission setting", .optional, .optional, .optional⟩,
    ⟨0xCE, "Independent operation permission setting", .optional, .optional, .optional⟩,
    ⟨0xCF, "Working operation status", .required, .notApplicable, .required⟩,
    ⟨0xCF, "Working operation status", .required, .notApplicable, .required⟩,
    ⟨0xD0, "Rated electric energy", .optional, .notApplicable, .optional⟩,
    ⟨0xD1, "Rated capacity", .optional, .notApplicable, .optional⟩,
    ⟨0xD2, "Rated voltage", .optional, .notApplicable, .optional⟩,
    ⟨0xD3, "Measured instantaneous charging/discharging electric energy", .optional, .notApplicable, .optional⟩,
    ⟨0xD4, "Measured instantaneous charging/discharging current", .optional, .notApplicable, .optional⟩,
    ⟨0xD5, "Measured instantaneous charging/discharging voltage", .optional, .notApplicable, .optional⟩,
    ⟨0xD6, "Measured cumulative discharging electric energy", .optional, .notApplicable, .optional⟩,
    ⟨0xD7, "Measured cumulative discharging electric energy reset setting", .notApplicable, .optional, .notApplicable⟩,
    ⟨0xD8, "Measured cumulative charging electric energy", .optional, .notApplicable, .optional⟩,
    ⟨0xD9, "Measured cumulative charging electric energy reset setting", .notApplicable, .optional, .notApplicable⟩,
    ⟨0xDA, "Operation mode setting", .required, .required, .required⟩,
    ⟨0xDA, "Operation mode setting", .required, .required, .required⟩,
    ⟨0xDA, "Operation mode setting", .required, .required, .required⟩,
    ⟨0xDA, "Operation mode setting", .required, .required, .required⟩,
    ⟨0xDB, "System-interconnected type", .optional, .notApplicable, .optional⟩,
    ⟨0xDB, "System-interconnected type", .required, .notApplicable, .optional⟩,
    ⟨0xDC, "Minimum/maximum charging power (Independent)", .optional, .notApplicable, .optional⟩,
    ⟨0xDD, "Minimum/maximum discharging power (Independent)", .optional, .notApplicable, .optional⟩,
    ⟨0xDE, "Minimum/maximum charging current (Independent)", .optional, .notApplicable, .optional⟩,
    ⟨0xDF, "Minimum/maximum discharging current (Independent)", .optional, .notApplicable, .optional⟩,
    ⟨0xE0, "Charging/discharging amount setting 1", .optional, .optional, .optional⟩,
    ⟨0xE0, "Charging/discharging amount setting 1", .optional, .optional, .optional⟩,
    ⟨0xE1, "Charging/discharging amount setting 2", .optional, .optional, .optional⟩,
    ⟨0xE1, "Charging/discharging amount setting 2", .optional, .optional, .optional⟩,
    ⟨0xE2, "Remaining stored electricity 1", .requiredC, .notApplicable, .optional⟩,
    ⟨0xE3, "Remaining stored electricity 2", .requiredC, .notApplicable, .optional⟩,
    ⟨0xE4, "Remaining stored electricity 3", .requiredC, .notApplicable, .optional⟩,
    ⟨0xE5, "Battery state of health", .optional, .notApplicable, .optional⟩,
    ⟨0xE6, "Battery type", .required, .notApplicable, .optional⟩,
    ⟨0xE7, "Charging amount setting 1", .optional, .optional, .optional⟩,
    ⟨0xE8, "Discharging amount setting 1", .optional, .optional, .optional⟩,
    ⟨0xE9, "Charging amount setting 2", .optional, .optional, .optional⟩,
    ⟨0xEA, "Discharging amount setting 2", .optional, .optional, .optional⟩,
    ⟨0xEB, "Charging electric energy setting", .optional, .optional, .optional⟩,
    ⟨0xEC, "Discharging electric energy setting", .optional, .optional, .optional⟩,
    ⟨0xED, "Charging current setting", .optional, .optional, .optional⟩,
    ⟨0xEE, "Discharging current setting", .optional, .optional, .optional⟩,
    ⟨0xEF, "Rated voltage (Independent)", .optional, .notApplicable, .optional⟩]

/-- database_mra_objects.go:494-503 -/
def obj0156 : RawObj where
  clsName := "Package-type commercial air conditioner (indoor unit) (except those for facilities)"
  grpCode := 0x01
  clsCode := 0x56
  props := [
    ⟨0x80, "Operation status", .required, .required, .required⟩,
    ⟨0xAC, "Thermostat state", .required, .notApplicable, .optional⟩,
    ⟨0xAE, "Current function (automatic operation mode)", .required, .notApplicable, .optional⟩,
    ⟨0xB0, "Operation mode setting", .required, .required, .required⟩,
    ⟨0xB3, "Temperature setting", .required, .required, .required⟩,
    ⟨0xBB, "Measured indoor unit temperature", .optional, .notApplicable, .optional⟩,
    ⟨0xCA, "Group information", .required, .notApplicable, .optional⟩,
    ⟨0xDB, "Power consumption range for indoor units", .optional, .notApplicable, .optional⟩]

/-- database_mra_objects.go:506-516 -/
def obj03BB : RawObj where
  clsName := "Rice cooker"
  grpCode := 0x03
  clsCode := 0xBB
  props := [
    ⟨0x90, "Rice cooking reservation setting", .optional, .optional, .optional⟩,
    ⟨0x91, "Rice cooking reservation time setting", .optional, .optional, .optional⟩,
    ⟨0x92, "Rice cooking reservation relative time setting", .optional, .optional, .optional⟩,
    ⟨0xB0, "Cover closure status", .optional, .notApplicable, .optional⟩,
    ⟨0xB1, "Rice cooking status", .required, .notApplicable, .optional⟩,
    ⟨0xB2, "Rice cooking control setting", .requiredO, .requiredO, .optional⟩,
    ⟨0xE1, "Warmer setting", .optional, .optional, .optional⟩,
    ⟨0xE5, "Inner pot removal status", .optional, .notApplicable, .optional⟩,
    ⟨0xE6, "Cover removal status", .optional, .notApplicable, .optional⟩]

/-- database_mra_objects.go:519-542 -/
def obj028A : RawObj where
  clsName := "High-voltage smart electric energy meter"
  grpCode := 0x02
  clsCode := 0x8A
  props := [
    ⟨0xC1, "Monthly maximum electric power demand", .required, .notApplicable, .optional⟩,
    ⟨0xC2, "Cumulative maximum electric power demand", .optional, .notApplicable, .optional⟩,
    ⟨0xC3, "Electric power demand at fixed time (30-minute average electric power)", .required, .notApplicable, .optional⟩,
    ⟨0xC4, "Number of effective digits of electric power demand", .required, .notApplicable, .optional⟩,
    ⟨0xC5, "Unit of electric power demand", .required, .notApplicable, .optional⟩,
    ⟨0xC6, "Historical data of measured electric power demand", .required, .notApplicable, .optional⟩,
    ⟨0xC7, "Unit of cumulative maximum electric power demand", .optional, .notApplicable, .optional⟩,
    ⟨0xCA, "Measurement data of reactive electric power consumption (lag) for power factor measurement", .optional, .notApplicable, .optional⟩,
    ⟨0xCB, "Measurement data of cumulative amount of reactive electric power consumption (lag) at fixed time for power factor measurement", .optional, .notApplicable, .optional⟩,
    ⟨0xCC, "Number of effective digits for measurement data of cumulative amount of reactive electric power consumption (lag) for power factor measurement", .optional, .notApplicable, .optional⟩,
    ⟨0xCD, "Unit of measurement data of cumulative amount of reactive electric power consumption (lag)", .optional, .notApplicable, .optional⟩,
    ⟨0xCE, "Historical data of measurement data of cumulative amount of reactive electric power consumption (lag) for power factor measurement", .optional, .notApplicable, .optional⟩,
    ⟨0xD3, "Coefficient", .required, .notApplicable, .optional⟩,
    ⟨0xD4, "Multiplying factor for coefficient", .required, .notApplicable, .optional⟩,
    ⟨0xE0, "Fixed date", .required, .notApplicable, .optional⟩,
    ⟨0xE1, "Day for which the historical data of measured cumulative amounts of electric energy is to be retrieved", .required, .required, .optional⟩,
    ⟨0xE2, "Measured cumulative amounts of active electric energy", .required, .notApplicable, .optional⟩,
    ⟨0xE3, "Cumulative amounts of active electric energy at fixed time", .required, .notApplicable, .optional⟩,
    ⟨0xE4, "Measurement data of cumulative amounts of active electric energy for power factor measurement", .optional, .notApplicable, .optional⟩,
    ⟨0xE5, "Number of effective digits for cumulative amount of active electric energy", .required, .notApplicable, .optional⟩,
    ⟨0xE6, "Unit of cumulative amounts of effective electric energy", .required, .notApplicable, .optional⟩,
    ⟨0xE7, "Historical data of measured cumulative amount of active electric energy", .required, .notApplicable, .optional⟩]

/-- database_mra_objects.go:545-555 -/
def obj03B9 : RawObj where
  clsName := "Cooking heater"
  grpCode := 0x03
  clsCode := 0xB9
  props := [
    ⟨0x96, "Relative time settings of off timers", .optional, .optional, .optional⟩,
    ⟨0xA1, "Child lock setting", .optional, .optional, .optional⟩,
    ⟨0xA2, "Radiant heater lock setting", .optional, .optional, .optional⟩,
    ⟨0xB1, "Heating status", .required, .notApplicable, .optional⟩,
    ⟨0xB2, "Heating setting", .optional, .optional, .optional⟩,
    ⟨0xB3, "All stop setting", .notApplicable, .requiredO, .optional⟩,
    ⟨0xE0, "Heating modes of stoves", .optional, .optional, .optional⟩,
    ⟨0xE3, "Heating temperature setting", .optional, .optional, .optional⟩,
    ⟨0xE7, "Heating power setting", .optional, .optional, .optional⟩]

/-- database_mra_objects.go:558-562 -/
def obj001D : RawObj where
  clsName := "VOC sensor"
  grpCode := 0x00
  clsCode := 0x1D
  props := [
    ⟨0xB0, "Detection threshold level", .optional, .optional, .optional⟩,
    ⟨0xB1, "VOC detection status", .optional, .notApplicable, .required⟩,
    ⟨0xE0, "Measured value of VOC concentration", .required, .notApplicable, .optional⟩]

/-- database_mra_objects.go:565-589 -/
def obj0273 : RawObj where
  clsName := "Bathroom heater dryer"
  grpCode := 0x02
  clsCode := 0x73
  props := [
    ⟨0x90, "On timer reservation setting 1", .optional, .optional, .optional⟩,
    ⟨0x91, "On timer setting value", .optional, .optional, .optional⟩,
    ⟨0x92, "On relative timer setting value", .optional, .optional, .optional⟩,
    ⟨0x94, "Off timer reservation setting", .optional, .optional, .optional⟩,
    ⟨0x95, "OFF timer setting value", .optional, .optional, .optional⟩,
    ⟨0x96, "Off relative timer setting value", .optional, .optional, .optional⟩,
    ⟨0xB0, "Operation setting", .required, .required, .optional⟩,
    ⟨0xB0, "Operation setting", .required, .required, .optional⟩,
    ⟨0xB1, "Ventilation operation setting", .optional, .optional, .optional⟩,
    ⟨0xB2, "Bathroom prewarming operation setting", .required, .required, .optional⟩,
    ⟨0xB2, "Bathroom prewarming operation setting", .optional, .optional, .optional⟩,
    ⟨0xB3, "Bathroom heating operation setting", .optional, .optional, .optional⟩,
    ⟨0xB4, "Bathroom drying operation setting", .required, .required, .optional⟩,
    ⟨0xB5, "Cool air circulation operation setting", .optional, .optional, .optional⟩,
    ⟨0xB6, "Mist sauna operation setting", .optional, .optional, .optional⟩,
    ⟨0xB7, "Water mist operation setting", .optional, .optional, .optional⟩,
    ⟨0xBA, "Measured value of bathroom relative humidity", .optional, .notApplicable, .optional⟩,
    ⟨0xBB, "Measured value of bathroom temperature", .optional, .notApplicable, .optional⟩,
    ⟨0xC2, "Ventilation air flow rate setting", .optional, .optional, .optional⟩,
    ⟨0xCF, "Filter cleaning reminder sign setting", .optional, .optional, .optional⟩,
    ⟨0xE0, "Human body detection status", .optional, .notApplicable, .optional⟩,
    ⟨0xE1, "On timer reservation setting 2", .optional, .optional, .optional⟩,
    ⟨0xE1, "On timer reservation setting 2", .optional, .optional, .optional⟩]

/-- database_mra_objects.go:592-600 -/
def obj03D4 : RawObj where
  clsName := "Commercial show case outdoor unit"
  grpCode := 0x03
  clsCode := 0xD4
  props := [
    ⟨0xAA, "Indicates that the showcase freezer is in an exceptional status.", .optional, .notApplicable, .optional⟩,
    ⟨0xB0, "Operation mode setting", .required, .required, .required⟩,
    ⟨0xB0, "Operation mode setting", .required, .required, .required⟩,
    ⟨0xBE, "Used to acquire measurements of outdoor air temperature.", .optional, .notApplicable, .optional⟩,
    ⟨0xCA, "Group information", .optional, .optional, .optional⟩,
    ⟨0xCA, "Group information", .required, .optional, .optional⟩,
    ⟨0xE2, "Indicates compressor ON/OFF status.", .optional, .optional, .optional⟩]

/-- database_mra_objects.go:603-638 -/
def obj02A7 : RawObj where
  clsName := "Frequency regulation"
  grpCode := 0x02
  clsCode := 0xA7
  props := [
    ⟨0x8C, "Product code", .required, .notApplicable, .optional⟩,
    ⟨0x8D, "Production number", .required, .notApplicable, .optional⟩,
    ⟨0xC0, "Control point", .required, .optional, .optional⟩,
    ⟨0xC1, "Frequency regulation parameter setting", .required, .required, .optional⟩,
    ⟨0xC2, "EM target power value", .required, .required, .optional⟩,
    ⟨0xC3, "Command control parameter setting", .requiredC, .requiredC, .optional⟩,
    ⟨0xC4, "Autonomous control parameter setting 1", .requiredC, .requiredC, .optional⟩,
    ⟨0xC5, "Autonomous control parameter setting 2", .optional, .optional, .optional⟩,
    ⟨0xC6, "Autonomous control parameter setting 3", .optional, .optional, .optional⟩,
    ⟨0xC7, "Correction value for reference frequency", .optional, .optional, .optional⟩,
    ⟨0xD0, "Transmittable/receivable cycle", .required, .notApplicable, .optional⟩,
    ⟨0xD1, "Device type", .required, .notApplicable, .optional⟩,
    ⟨0xD2, "Values of AC max power", .required, .notApplicable, .optional⟩,
    ⟨0xD3, "Value of contract power", .optional, .notApplicable, .optional⟩,
    ⟨0xD4, "Device control performance", .requiredC, .notApplicable, .optional⟩,
    ⟨0xD5, "Information of frequency regulation", .required, .notApplicable, .required⟩,
    ⟨0xD6, "Detailed information of whether the device can continue to control", .required, .notApplicable, .optional⟩,
    ⟨0xD7, "Information of EM", .required, .notApplicable, .optional⟩,
    ⟨0xD8, "Measured instantaneous values of PCS", .required, .notApplicable, .optional⟩,
    ⟨0xD9, "Response information", .required, .notApplicable, .optional⟩,
    ⟨0xDA, "Instantaneous input and output power capability value", .required, .notApplicable, .optional⟩,
    ⟨0xDB, "Instantaneous chargeable and dischargeable power values", .optional, .notApplicable, .optional⟩,
    ⟨0xDC, "Battery status", .required, .notApplicable, .optional⟩,
    ⟨0xDE, "Cumulative electric energy measurement values", .required, .notApplicable, .optional⟩,
    ⟨0xDF, "Cumulative electric energy measurement by frequency regulation", .optional, .notApplicable, .optional⟩,
    ⟨0xE0, "EM planned information", .optional, .notApplicable, .optional⟩,
    ⟨0xE1, "EM planned value 1", .optional, .notApplicable, .optional⟩,
    ⟨0xE2, "EM planned value 2", .optional, .notApplicable, .optional⟩,
    ⟨0xE3, "Information of supply plan for regulation up", .optional, .notApplicable, .optional⟩,
    ⟨0xE4, "Supply plan-1 for regulation up", .optional, .notApplicable, .optional⟩,
    ⟨0xE5, "Supply plan-2 for regulation up", .optional, .notApplicable, .optional⟩,
    ⟨0xE6, "Information of supply plan for regulation down", .optional, .notApplicable, .optional⟩,
    ⟨0xE7, "Supply plan-1 for regulation down", .optional, .notApplicable, .optional⟩,
    ⟨0xE8, "Supply plan-2 for regulation down", .optional, .notApplicable, .optional⟩]

/-- database_mra_objects.go:641-668 -/
def obj027C : RawObj where
  clsName := "Fuel cell"
  grpCode := 0x02
  clsCode := 0x7C
  props := [
    ⟨0xC1, "Measured temperature of water in water heater", .optional, .notApplicable, .optional⟩,
    ⟨0xC2, "Rated power generation output", .optional, .notApplicable, .optional⟩,
    ⟨0xC2, "Rated power generation output", .required, .notApplicable, .optional⟩,
    ⟨0xC3, "Heating value of hot water storage tank", .optional, .notApplicable, .optional⟩,
    ⟨0xC4, "Measured instantaneous power generation output", .required, .notApplicable, .optional⟩,
    ⟨0xC5, "Measured cumulative power generation output", .required, .notApplicable, .optional⟩,
    ⟨0xC6, "Cumulative power generation output reset setting", .notApplicable, .optional, .notApplicable⟩,
    ⟨0xC6, "Cumulative energy generation output reset setting", .notApplicable, .optional, .notApplicable⟩,
    ⟨0xC7, "Measured instantaneous gas consumption", .optional, .notApplicable, .optional⟩,
    ⟨0xC8, "Measured cumulative gas consumption", .optional, .notApplicable, .optional⟩,
    ⟨0xC9, "Cumulative gas consumption reset setting", .notApplicable, .optional, .notApplicable⟩,
    ⟨0xCA, "Power generation setting", .notApplicable, .optional, .optional⟩,
    ⟨0xCA, "Power generation setting", .optional, .optional, .optional⟩,
    ⟨0xCB, "Power generation status", .optional, .notApplicable, .optional⟩,
    ⟨0xCB, "Power generation status", .required, .notApplicable, .required⟩,
    ⟨0xCC, "Measured in-house instantaneous power consumption", .optional, .notApplicable, .optional⟩,
    ⟨0xCD, "Measured in-house cumulative power consumption", .optional, .notApplicable, .optional⟩,
    ⟨0xCD, "Measured in-house cumulative energy consumption", .optional, .notApplicable, .optional⟩,
    ⟨0xCE, "In-house cumulative power consumption reset", .notApplicable, .optional, .notApplicable⟩,
    ⟨0xCE, "In-house cumulative energy consumption reset", .notApplicable, .optional, .notApplicable⟩,
    ⟨0xD0, "System interconnected type", .optional, .notApplicable, .optional⟩,
    ⟨0xD0, "System interconnected type", .required, .notApplicable, .optional⟩,
    ⟨0xD1, "Power generation request time setting", .required, .required, .optional⟩,
    ⟨0xD2, "Designated power generation status", .required, .required, .optional⟩,
    ⟨0xE1, "Measured remaining hot water amount", .optional, .notApplicable, .optional⟩,
    ⟨0xE2, "Tank capacity", .optional, .notApplicable, .optional⟩]

/-- database_mra_objects.go:671-675 -/
def obj0002 : RawObj where
  clsName := "Crime prevention sensor"
  grpCode := 0x00
  clsCode := 0x02
  props := [
    ⟨0xB0, "Detection threshold level", .optional, .optional, .optional⟩,
    ⟨0xB1, "Invasion occurrence status", .required, .notApplicable, .required⟩,
    ⟨0xBF, "Invasion occurrence status resetting", .notApplicable, .optional, .notApplicable⟩]

/-- database_mra_objects.go:678-689 -/
def obj0281 : RawObj where
  clsName := "Water flowmeter"
  grpCode := 0x02
  clsCode := 0x81
  props := [
    ⟨0xD0, "Water flowmeter classification", .optional, .optional, .optional⟩,
    ⟨0xD1, "Owner classification", .optional, .optional, .optional⟩,
    ⟨0xE0, "Measured cumulative amount of flowing water", .required, .notApplicable, .optional⟩,
    ⟨0xE1, "Unit for measured Cumulative amounts of flowing water", .required, .notApplicable, .optional⟩,
    ⟨0xE2, "Historical data of measured cumulative amount of flowing water", .optional, .notApplicable, .optional⟩,
    ⟨0xE3, "Detection of abnormal value in metering data", .optional, .notApplicable, .required⟩,
    ⟨0xE4, "Security data information", .optional, .notApplicable, .optional⟩,
    ⟨0xE5, "ID number setting", .optional, .optional, .optional⟩,
    ⟨0xE6, "Verification expiration information", .optional, .optional, .optional⟩,
    ⟨0xE7, "Historical data 2 of measured cumulative amount of flowing water", .optional, .notApplicable, .optional⟩]

/-- database_mra_objects.go:692-742 -/
def obj0130 : RawObj where
  clsName := "Home air conditioner"
  grpCode := 0x01
  clsCode := 0x30
  props := [
    ⟨0x80, "Operation status", .required, .required, .required⟩,
    ⟨0x8F, "Power-saving operation setting", .required, .required, .required⟩,
    ⟨0x90, "ON timer-based reservation setting", .optional, .optional, .optional⟩,
    ⟨0x91, "ON timer setting (time)", .optional, .optional, .optional⟩,
    ⟨0x92, "ON timer setting (relative time)", .optional, .optional, .optional⟩,
    ⟨0x94, "OFF timer-based reservation setting", .optional, .optional, .optional⟩,
    ⟨0x95, "OFF timer setting (time)", .optional, .optional, .optional⟩,
    ⟨0x96, "OFF timer setting (relative time)", .optional, .optional, .optional⟩,
    ⟨0xA0, "Air flow rate setting", .optional, .optional, .optional⟩,
    ⟨0xA0, "Air flow rate setting", .required, .required, .required⟩,
    ⟨0xA1, "Automatic control of air flow direction setting", .optional, .optional, .optional⟩,
    ⟨0xA3, "Automatic swing of air flow setting", .optional, .optional, .optional⟩,
    ⟨0xA4, "Air flow direction (vertical) setting", .optional, .optional, .optional⟩,
    ⟨0xA5, "Air flow direction (horizontal) setting", .optional, .optional, .optional⟩,
    ⟨0xAA, "Special state", .optional, .notApplicable, .optional⟩,
    ⟨0xAB, "Non-priority state", .optional, .notApplicable, .optional⟩,
    ⟨0xB0, "Operation mode setting", .required, .required, .required⟩,
    ⟨0xB1, "Automatic temperature control setting", .optional, .optional, .optional⟩,
    ⟨0xB2, "Normal/highspeed/silent operation setting", .optional, .optional, .optional⟩,
    ⟨0xB3, "Set temperature value", .required, .required, .optional⟩,
    ⟨0xB4, "Set value of relative humidity in dehumidifying mode", .optional, .optional, .optional⟩,
    ⟨0xB5, "Set temperature value in cooling mode", .optional, .optional, .optional⟩,
    ⟨0xB6, "Set temperature value in heating mode", .optional, .optional, .optional⟩,
    ⟨0xB7, "Set temperature value in dehumidifying mode", .optional, .optional, .optional⟩,
    ⟨0xB8, "Rated power consumption", .optional, .notApplicable, .optional⟩,
    ⟨0xB9, "Measured value of current consumption", .optional, .notApplicable, .optional⟩,
    ⟨0xBA, "Measured value of room relative humidity", .optional, .notApplicable, .optional⟩,
    ⟨0xBB, "Measured value of room temperature", .optional, .notApplicable, .optional⟩,
    ⟨0xBB, "Measured value of room temperature", .required, .notApplicable, .optional⟩,
    ⟨0xBC, "Set temperature value of user remote control", .optional, .notApplicable, .optional⟩,
    ⟨0xBD, "Measured cooled air temperature", .optional, .notApplicable, .optional⟩,
    ⟨0xBE, "Measured outdoor air temperature", .optional, .notApplicable, .optional⟩,
    ⟨0xBF, "Relative temperature setting", .optional, .optional, .optional⟩,
    ⟨0xC0, "Ventilation function setting", .optional, .optional, .optional⟩,
    ⟨0xC1, "Humidifier function setting", .optional, .optional, .optional⟩,
    ⟨0xC2, "Ventilation air flow rate setting", .optional, .optional, .optional⟩,
    ⟨0xC4, "Degree of humidification setting", .optional, .optional, .optional⟩,
    ⟨0xC6, "Mounted air cleaning method", .optional, .notApplicable, .optional⟩,
    ⟨0xC7, "Air purifier function setting", .optional, .optional, .optional⟩,
    ⟨0xC8, "Mounted air refresh method", .optional, .notApplicable, .optional⟩,
    ⟨0xC9, "Air refresher function setting", .optional, .optional, .optional⟩,
    ⟨0xCA, "Mounted self-cleaning method", .optional, .notApplicable, .optional⟩,
    ⟨0xCB, "Self-cleaning function setting", .optional, .optional, .optional⟩,
    ⟨0xCC, "Special function setting", .optional, .optional, .optional⟩,
    ⟨0xCD, "Operation status of components", .optional, .notApplicable, .optional⟩,
    ⟨0xCE, "Thermostat setting override function", .notApplicable, .optional, .notApplicable⟩,
    ⟨0xCE, "Thermostat setting override function", .optional, .optional, .optional⟩,
    ⟨0xCF, "Air purification mode setting", .optional, .optional, .optional⟩,
    ⟨0xD0, "Buzzer", .notApplicable, .optional, .notApplicable⟩]

/-- database_mra_objects.go:745-753 -/
def obj0022 : RawObj where
  clsName := "Electric energy sensor"
  grpCode := 0x00
  clsCode := 0x22
  props := [
    ⟨0xE0, "Cumulative amounts of electric energy", .required, .notApplicable, .optional⟩,
    ⟨0xE1, "Medium-capacity sensor instantaneous electric energy", .optional, .notApplicable, .optional⟩,
    ⟨0xE2, "Small-capacity sensor instantaneous electric energy", .optional, .notApplicable, .optional⟩,
    ⟨0xE3, "Large-capacity sensor instantaneous electric energy", .optional, .notApplicable, .optional⟩,
    ⟨0xE4, "Cumulative amounts of electric energy measurement log", .optional, .notApplicable, .optional⟩,
    ⟨0xE4, "Cumulative amounts of electric energy measurement log", .optional, .notApplicable, .optional⟩,
    ⟨0xE5, "Effective voltage value", .optional, .notApplicable, .optional⟩]

/-- database_mra_objects.go:756-789 -/
def obj03D3 : RawObj where
  clsName := "Washer and dryer"
  grpCode := 0x03
  clsCode := 0xD3
  props := [
    ⟨0x90, "On timer reservation setting", .optional, .optional, .optional⟩,
    ⟨0x91, "On timer setting", .optional, .optional, .optional⟩,
    ⟨0x92, "Relative time-based on timer setting", .optional, .optional, .optional⟩,
    ⟨0xB0, "Door/cover open/close status", .optional, .notApplicable, .optional⟩,
    ⟨0xB2, "Washer and dryer setting", .optional, .optional, .optional⟩,
    ⟨0xD0, "Washer and dryer cycle setting 1", .optional, .optional, .optional⟩,
    ⟨0xD1, "Washer and dryer cycle setting 2", .optional, .optional, .optional⟩,
    ⟨0xD2, "Drying cycle setting", .optional, .optional, .optional⟩,
    ⟨0xD3, "Washer and dryer cycle option list 1", .optional, .notApplicable, .optional⟩,
    ⟨0xD4, "Washer and dryer cycle option list 2", .optional, .notApplicable, .optional⟩,
    ⟨0xD5, "Washer and dryer cycle option list 3", .optional, .notApplicable, .optional⟩,
    ⟨0xD6, "Water flow rate setting", .optional, .optional, .optional⟩,
    ⟨0xD7, "Rotation speed for spin drying setting", .optional, .optional, .optional⟩,
    ⟨0xD8, "Degree of drying setting", .optional, .optional, .optional⟩,
    ⟨0xDB, "Remaining washing time", .optional, .notApplicable, .optional⟩,
    ⟨0xDC, "Remaining drying time", .optional, .notApplicable, .optional⟩,
    ⟨0xDF, "Elapsed time on the ON timer", .optional, .notApplicable, .optional⟩,
    ⟨0xE1, "Presoaking time setting", .optional, .optional, .optional⟩,
    ⟨0xE2, "Current stage of washer and dryer cycle", .optional, .notApplicable, .optional⟩,
    ⟨0xE3, "Water volume setting 1", .optional, .optional, .optional⟩,
    ⟨0xE4, "Water volume setting 2", .optional, .optional, .optional⟩,
    ⟨0xE5, "Washing time setting", .optional, .optional, .optional⟩,
    ⟨0xE6, "Number of times of rinsing setting", .optional, .optional, .optional⟩,
    ⟨0xE7, "Rinsing process setting", .optional, .optional, .optional⟩,
    ⟨0xE8, "Spin drying time setting", .optional, .optional, .optional⟩,
    ⟨0xE9, "Drying time setting", .optional, .optional, .optional⟩,
    ⟨0xEA, "Warm water setting", .optional, .optional, .optional⟩,
    ⟨0xEB, "Bathtub water recycle setting", .optional, .optional, .optional⟩,
    ⟨0xEC, "Wrinkling minimization setting", .optional, .optional, .optional⟩,
    ⟨0xED, "Time remaining to complete washer and dryer cycle", .optional, .notApplicable, .optional⟩,
    ⟨0xEE, "Door/cover lock setting", .optional, .optional, .optional⟩,
    ⟨0xEF, "Washer and dryer cycle", .optional, .notApplicable, .optional⟩]

/-- database_mra_objects.go:792-829 -/
def obj028F : RawObj where
  clsName := "Bidirectional high voltage smart electric energy meter"
  grpCode := 0x02
  clsCode := 0x8F
  props := [
    ⟨0x80, "Operation status", .required, .optional, .required⟩,
    ⟨0xC0, "Route B Identification number", .requiredC, .notApplicable, .optional⟩,
    ⟨0xC1, "Monthly maximum electric power demand (normal and reverse directions)", .required, .notApplicable, .optional⟩,
    ⟨0xC2, "Cumulative maximum electric power demand (normal and reverse directions)", .optional, .notApplicable, .optional⟩,
    ⟨0xC3, "Electric power demand at fixed time (30-minute average electric power) (normal and reverse directions)", .required, .notApplicable, .optional⟩,
    ⟨0xC4, "Number of effective digits of electric power demand", .required, .notApplicable, .optional⟩,
    ⟨0xC5, "Unit of electric power demand", .required, .notApplicable, .optional⟩,
    ⟨0xC6, "Historical data of measured electric power demand (normal direction)", .required, .notApplicable, .optional⟩,
    ⟨0xC7, "Unit of cumulative maximum electric power demand", .optional, .notApplicable, .optional⟩,
    ⟨0xC8, "Historical data of measured electric power demand (reverse direction)", .required, .notApplicable, .optional⟩,
    ⟨0xCA, "Measurement data of cumulative amount of reactive electric energy (lag) for power factor (normal and reverse directions)", .optional, .notApplicable, .optional⟩,
    ⟨0xCB, "Measurement data of cumulative amount of reactive electric energy (lag) at fixed time for power factor (normal and reverse directions)", .optional, .notApplicable, .optional⟩,
    ⟨0xCC, "Number of effective digits for cumulative amount of reactive electric energy", .optional, .notApplicable, .optional⟩,
    ⟨0xCD, "Unit for cumulative amounts of reactive electric energy", .optional, .notApplicable, .optional⟩,
    ⟨0xCE, "Historical data of measurement data of cumulative amount of reactive electric energy (lag) for power factor (normal direction)", .optional, .notApplicable, .optional⟩,
    ⟨0xCF, "Historical data of measurement data of cumulative amount of reactive electric energy (lag) for power factor (reverse direction)", .optional, .notApplicable, .optional⟩,
    ⟨0xD0, "One-minute measured cumulative amount of active electric energy (normal and reverse directions)", .required, .notApplicable, .optional⟩,
    ⟨0xD1, "One-minute measurement data of cumulative amount of reactive electric energy (lag) for power factor (normal and reverse directions)", .optional, .notApplicable, .optional⟩,
    ⟨0xD3, "Coefficient", .required, .notApplicable, .optional⟩,
    ⟨0xD4, "Multiplying factor for coefficient", .required, .notApplicable, .optional⟩,
    ⟨0xD5, "Present values of measured cumulative amount of reactive electric energy (lag) (normal and reverse directions)", .optional, .notApplicable, .optional⟩,
    ⟨0xD6, "Present values of measured cumulative amount of reactive electric energy (lead) (normal and reverse directions)", .optional, .notApplicable, .optional⟩,
    ⟨0xE0, "Fixed date", .required, .notApplicable, .optional⟩,
    ⟨0xE1, "Day for which the historical data of measured cumulative amounts of electric energy is to be retrieved", .required, .required, .optional⟩,
    ⟨0xE2, "Measured cumulative amount of active electric energy (normal and reverse directions)", .required, .notApplicable, .optional⟩,
    ⟨0xE3, "Cumulative amounts of active electric energy at fixed time (normal and reverse directions)", .required, .notApplicable, .optional⟩,
    ⟨0xE4, "Measurement data of cumulative amount of active electric energy for power factor (normal and reverse directions)", .optional, .notApplicable, .optional⟩,
    ⟨0xE5, "Number of effective digits for cumulative amount of active electric energy", .required, .notApplicable, .optional⟩,
    ⟨0xE6, "Unit for cumulative amounts of active electric energy", .required, .notApplicable, .optional⟩,
    ⟨0xE7, "Historical data of measured cumulative amount of active electric energy (normal direction)", .required, .notApplicable, .optional⟩,
    ⟨0xE8, "Historical data of measured cumulative amount of active electric energy (reverse direction)", .required, .notApplicable, .optional⟩,
    ⟨0xEA, "Measured instantaneous electric energy", .required, .notApplicable, .optional⟩,
    ⟨0xEB, "Measured instantaneous currents 2", .required, .notApplicable, .optional⟩,
    ⟨0xED, "Historical data of measured cumulative amount of active electric energy 2 (normal and reverse directions)", .required, .notApplicable, .optional⟩,
    ⟨0xEE, "Historical data of measurement data of cumulative amount of reactive electric energy (lag) for power factor 2 (normal and reverse directions)", .optional, .notApplicable, .optional⟩,
    ⟨0xEF, "Day for which the historical data of measured cumulative amounts of electric energy is to be retrieved 2", .required, .required, .optional⟩]

/-- database_mra_objects.go:832-849 -/
def obj0263 : RawObj where
  clsName := "Electrically operated rain sliding door/shutter"
  grpCode := 0x02
  clsCode := 0x63
  props := [
    ⟨0x89, "Fault description (Recoverable faults)", .optional, .notApplicable, .required⟩,
    ⟨0x90, "Timer operation setting", .optional, .optional, .required⟩,
    ⟨0xD0, "Opening speed setting", .optional, .optional, .optional⟩,
    ⟨0xD1, "Closing speed setting", .optional, .optional, .optional⟩,
    ⟨0xD2, "Operation time", .optional, .optional, .optional⟩,
    ⟨0xE0, "Open/close operation setting", .required, .required, .required⟩,
    ⟨0xE1, "Degree-of-opening setting", .optional, .optional, .optional⟩,
    ⟨0xE2, "Blind angle setting", .optional, .optional, .optional⟩,
    ⟨0xE3, "Opening/closing speed setting", .optional, .optional, .optional⟩,
    ⟨0xE5, "Electric lock setting", .optional, .optional, .optional⟩,
    ⟨0xE8, "Remote operation setting status", .optional, .notApplicable, .required⟩,
    ⟨0xE9, "Selective degree-of-opening setting", .optional, .optional, .required⟩,
    ⟨0xEA, "Open/closed status", .optional, .notApplicable, .required⟩,
    ⟨0xED, "Slit degree-of-opening", .optional, .optional, .optional⟩,
    ⟨0xEE, "One-time opening speed setting", .optional, .optional, .optional⟩,
    ⟨0xEF, "One-time closing speed setting", .optional, .optional, .optional⟩]

/-- database_mra_objects.go:852-854 -/
def obj001B : RawObj where
  clsName := "CO2 sensor"
  grpCode := 0x00
  clsCode := 0x1B
  props := [
    ⟨0xE0, "Measured value of CO2 concentration", .required, .notApplicable, .optional⟩]

/-- database_mra_objects.go:857-861 -/
def obj0023 : RawObj where
  clsName := "Current sensor"
  grpCode := 0x00
  clsCode := 0x23
  props := [
    ⟨0xE0, "Measured current value 1", .requiredC, .notApplicable, .optional⟩,
    ⟨0xE1, "Rated voltage to be measured", .optional, .notApplicable, .optional⟩,
    ⟨0xE2, "Measured current value 2", .requiredC, .notApplicable, .optional⟩]

/-- database_mra_objects.go:864-887 -/
def obj02A1 : RawObj where
  clsName := "EV Charger"
  grpCode := 0x02
  clsCode := 0xA1
  props := [
    ⟨0xC5, "Rated charge capacity", .required, .notApplicable, .optional⟩,
    ⟨0xC7, "Vehicle connection and chargeable status", .required, .notApplicable, .required⟩,
    ⟨0xC7, "Vehicle connection and chargeable status", .required, .notApplicable, .required⟩,
    ⟨0xC8, "Minimum/maximum charging electric energy", .optional, .notApplicable, .optional⟩,
    ⟨0xCA, "Minimum/maximum charging electric current", .optional, .notApplicable, .optional⟩,
    ⟨0xCC, "Charger type", .required, .notApplicable, .optional⟩,
    ⟨0xCC, "Charger type", .required, .notApplicable, .optional⟩,
    ⟨0xCD, "Vehicle connection confirmation", .notApplicable, .required, .optional⟩,
    ⟨0xCE, "Chargeable capacity of vehicle mounted battery", .required, .notApplicable, .optional⟩,
    ⟨0xCF, "Remaining chargeable capacity of vehicle mounted battery", .required, .notApplicable, .optional⟩,
    ⟨0xD0, "Used capacity of vehicle mounted battery 1", .required, .notApplicable, .optional⟩,
    ⟨0xD2, "Rated voltage", .optional, .notApplicable, .optional⟩,
    ⟨0xD3, "Measured instantaneous charging electric energy", .optional, .notApplicable, .optional⟩,
    ⟨0xD8, "Measured cumulative amount of charging electric energy", .optional, .notApplicable, .optional⟩,
    ⟨0xD9, "Cumulative amount of charging electric energy reset setting", .notApplicable, .optional, .notApplicable⟩,
    ⟨0xDA, "Operation mode setting", .required, .required, .required⟩,
    ⟨0xE2, "Remaining stored electricity of vehicle mounted battery1", .required, .notApplicable, .optional⟩,
    ⟨0xE4, "Remaining stored electricity of vehicle mounted battery3", .required, .notApplicable, .optional⟩,
    ⟨0xE6, "Vehicle ID", .required, .notApplicable, .optional⟩,
    ⟨0xE7, "Charging amount setting", .optional, .optional, .optional⟩,
    ⟨0xEB, "Charging electric energy setting", .optional, .optional, .optional⟩,
    ⟨0xED, "Charging current setting", .optional, .optional, .optional⟩]

/-- database_mra_objects.go:890-894 -/
def obj0280 : RawObj where
  clsName := "Watt-hour meter"
  grpCode := 0x02
  clsCode := 0x80
  props := [
    ⟨0xE0, "Cumulative amounts of electric energy measurement value", .required, .notApplicable, .optional⟩,
    ⟨0xE2, "Cumulative amounts of electric energy unit", .required, .notApplicable, .optional⟩,
    ⟨0xE3, "Cumulative amounts of electric energy measurement log 1", .optional, .notApplicable, .optional⟩]

/-- database_mra_objects.go:897-900 -/
def obj0003 : RawObj where
  clsName := "Emergency button"
  grpCode := 0x00
  clsCode := 0x03
  props := [
    ⟨0xB1, "Emergency occurrence status", .required, .notApplicable, .required⟩,
    ⟨0xBF, "Emergency occurrence status resetting", .notApplicable, .optional, .notApplicable⟩]

/-- database_mra_objects.go:903-936 -/
def obj0279 : RawObj where
  clsName := "Household solar power generation"
  grpCode := 0x02
  clsCode := 0x79
  props := [
    ⟨0x83, "Identification number", .required, .notApplicable, .optional⟩,
    ⟨0x89, "Fault description", .required, .notApplicable, .optional⟩,
    ⟨0x8C, "Product code", .required, .notApplicable, .optional⟩,
    ⟨0x97, "Current time setting", .requiredC, .optional, .optional⟩,
    ⟨0x98, "Current date setting", .requiredC, .optional, .optional⟩,
    ⟨0xA0, "Output power control setting 1", .requiredC, .requiredC, .optional⟩,
    ⟨0xA1, "Output power control setting 2", .requiredC, .requiredC, .optional⟩,
    ⟨0xA2, "Function to control purchase surplus electricity setting", .requiredC, .optional, .optional⟩,
    ⟨0xB0, "Output power controlling schedule", .requiredC, .notApplicable, .optional⟩,
    ⟨0xB1, "Next access date and time", .requiredC, .notApplicable, .required⟩,
    ⟨0xB2, "Function to control the type of surplus electricity purchase", .requiredC, .notApplicable, .optional⟩,
    ⟨0xB3, "Output power change time setting value", .optional, .notApplicable, .optional⟩,
    ⟨0xB4, "Upper limit clip setting value", .requiredC, .notApplicable, .optional⟩,
    ⟨0xC0, "Operation power factor setting value", .optional, .notApplicable, .optional⟩,
    ⟨0xC1, "FIT contract type", .required, .required, .optional⟩,
    ⟨0xC2, "Self-consumption type", .required, .notApplicable, .optional⟩,
    ⟨0xC3, "Capacity approved by equipment", .requiredC, .notApplicable, .optional⟩,
    ⟨0xC4, "Conversion coefficient", .requiredC, .notApplicable, .optional⟩,
    ⟨0xD0, "System-interconnected type", .optional, .notApplicable, .optional⟩,
    ⟨0xD0, "System-interconnected type", .required, .notApplicable, .optional⟩,
    ⟨0xD1, "Output power restraint status", .required, .notApplicable, .optional⟩,
    ⟨0xE0, "Measured instantaneous amount of electricity generated", .required, .notApplicable, .optional⟩,
    ⟨0xE1, "Measured cumulative amount of electric energy generated", .required, .notApplicable, .optional⟩,
    ⟨0xE2, "Resetting cumulative amount of electric energy generated", .notApplicable, .optional, .notApplicable⟩,
    ⟨0xE3, "Measured cumulative amount of electric energy sold", .optional, .notApplicable, .optional⟩,
    ⟨0xE4, "Resetting cumulative amount of electric energy sold", .notApplicable, .optional, .notApplicable⟩,
    ⟨0xE5, "Power generation output limit setting 1", .optional, .optional, .optional⟩,
    ⟨0xE6, "Power generation output limit setting 2", .optional, .optional, .optional⟩,
    ⟨0xE7, "Limit setting for the amount of electricity sold", .optional, .optional, .optional⟩,
    ⟨0xE8, "Rated power generation output (System-interconnected)", .optional, .optional, .optional⟩,
    ⟨0xE8, "Rated power generation output (System-interconnected)", .required, .optional, .optional⟩,
    ⟨0xE9, "Rated power generation output (Independent)", .optional, .optional, .optional⟩]

/-- database_mra_objects.go:939-960 -/
def obj027B : RawObj where
  clsName := "Floor heater"
  grpCode := 0x02
  clsCode := 0x7B
  props := [
    ⟨0x80, "Operation status", .required, .required, .required⟩,
    ⟨0x90, "ON timer reservation setting", .optional, .optional, .optional⟩,
    ⟨0x91, "Time set by ON timer", .optional, .optional, .optional⟩,
    ⟨0x92, "Relative ON timer setting", .optional, .optional, .optional⟩,
    ⟨0x94, "OFF timer reservation setting", .optional, .optional, .optional⟩,
    ⟨0x95, "Time set by OFF timer", .optional, .optional, .optional⟩,
    ⟨0x96, "Relative OFF timer setting", .optional, .optional, .optional⟩,
    ⟨0xD1, "Maximum temperature level", .optional, .notApplicable, .required⟩,
    ⟨0xE0, "Set temperature value", .requiredC, .requiredC, .optional⟩,
    ⟨0xE1, "Set temperature level by 15 steps", .requiredC, .requiredC, .optional⟩,
    ⟨0xE2, "Measured room temperature", .optional, .notApplicable, .optional⟩,
    ⟨0xE3, "Measured floor temperature", .optional, .notApplicable, .optional⟩,
    ⟨0xE3, "Measured floor temperature", .optional, .notApplicable, .optional⟩,
    ⟨0xE4, "Zone change setting", .optional, .optional, .optional⟩,
    ⟨0xE5, "Special operation setting", .optional, .optional, .optional⟩,
    ⟨0xE6, "Daily timer setting", .optional, .optional, .optional⟩,
    ⟨0xE7, "Daily timer setting 1", .optional, .optional, .optional⟩,
    ⟨0xE8, "Daily timer setting 2", .optional, .optional, .optional⟩,
    ⟨0xE9, "Rated power consumption", .optional, .notApplicable, .optional⟩,
    ⟨0xEA, "Power consumption measurement method", .optional, .notApplicable, .optional⟩]

/-- database_mra_objects.go:963-966 -/
def obj0016 : RawObj where
  clsName := "Bath heating status sensor"
  grpCode := 0x00
  clsCode := 0x16
  props := [
    ⟨0xB0, "Detection threshold level", .optional, .optional, .optional⟩,
    ⟨0xB1, "Bath heating detection status", .required, .notApplicable, .required⟩]

/-- database_mra_objects.go:969-989 -/
def obj027A : RawObj where
  clsName := "Cold or hot water heat source equipment"
  grpCode := 0x02
  clsCode := 0x7A
  props := [
    ⟨0x90, "ON timer reservation setting", .optional, .optional, .optional⟩,
    ⟨0x91, "ON timer setting", .optional, .optional, .optional⟩,
    ⟨0x92, "Relative ON timer setting", .optional, .optional, .optional⟩,
    ⟨0x94, "OFF timer reservation setting", .optional, .optional, .optional⟩,
    ⟨0x95, "Time set by OFF timer", .optional, .optional, .optional⟩,
    ⟨0x96, "Relative OFF timer setting", .optional, .optional, .optional⟩,
    ⟨0xD1, "Cold water temperature setting 2 Maximum allowable setting level", .optional, .optional, .required⟩,
    ⟨0xD2, "Warm water temperature setting 2 Maximum allowable setting level", .optional, .optional, .required⟩,
    ⟨0xE0, "Operation mode setting", .optional, .optional, .optional⟩,
    ⟨0xE1, "Water temperature setting 1", .requiredC, .requiredC, .optional⟩,
    ⟨0xE2, "Water temperature setting 2", .requiredC, .requiredC, .optional⟩,
    ⟨0xE3, "Measured temperature of outward water (Exit water Temperature)", .optional, .notApplicable, .optional⟩,
    ⟨0xE4, "Measured temperature of inward water (Entrance water Temperature)", .optional, .notApplicable, .optional⟩,
    ⟨0xE5, "Special operation setting", .optional, .optional, .optional⟩,
    ⟨0xE6, "Daily timer setting", .optional, .optional, .optional⟩,
    ⟨0xE7, "Daily timer setting 1", .optional, .optional, .optional⟩,
    ⟨0xE8, "Daily timer setting 2", .optional, .optional, .optional⟩,
    ⟨0xE9, "Rated power consumption", .optional, .notApplicable, .optional⟩,
    ⟨0xEA, "Power consumption measurement method", .optional, .notApplicable, .optional⟩]

/-- database_mra_objects.go:992-1008 -/
def obj028D : RawObj where
  clsName := "Smart electric energy meter for sub-metering"
  grpCode := 0x02
  clsCode := 0x8D
  props := [
    ⟨0xD3, "Electric energy coefficient", .optional, .notApplicable, .optional⟩,
    ⟨0xD4, "Unit for cumulative amount of electric energy (normal and reverse directions)", .required, .notApplicable, .optional⟩,
    ⟨0xD7, "Number of effective digits for cumulative amounts of electric energy", .required, .notApplicable, .optional⟩,
    ⟨0xD8, "Electric current coefficient", .optional, .notApplicable, .optional⟩,
    ⟨0xD9, "Voltage coefficient", .optional, .notApplicable, .optional⟩,
    ⟨0xE0, "Day for which the historical data of measured cumulative amounts of electric energy is to be retrieved", .required, .required, .optional⟩,
    ⟨0xE1, "Measured cumulative amount of electric energy(normal direction)", .required, .notApplicable, .optional⟩,
    ⟨0xE2, "Historical data of measured cumulative amounts of electric energy (normal direction)", .required, .notApplicable, .optional⟩,
    ⟨0xE3, "Measured cumulative amount of electric energy (reverse direction)", .required, .notApplicable, .optional⟩,
    ⟨0xE4, "Historical data of measured cumulative amounts of electric energy (reverse direction)", .required, .notApplicable, .optional⟩,
    ⟨0xE7, "Measured instantaneous electric power", .required, .notApplicable, .optional⟩,
    ⟨0xE8, "Measured instantaneous currents", .required, .notApplicable, .optional⟩,
    ⟨0xE9, "Measured instantaneous voltages", .optional, .notApplicable, .optional⟩,
    ⟨0xEA, "Cumulative amounts of electric energy measured at fixed time(normal direction)", .required, .notApplicable, .optional⟩,
    ⟨0xEB, "Cumulative amounts of electric energy measured at fixed time(reverse direction)", .required, .notApplicable, .optional⟩]

/-- database_mra_objects.go:1011-1030 -/
def obj0260 : RawObj where
  clsName := "Electrically operated blind/shade"
  grpCode := 0x02
  clsCode := 0x60
  props := [
    ⟨0x89, "Fault description (Recoverable faults)", .optional, .notApplicable, .required⟩,
    ⟨0x90, "Timer operation setting", .optional, .optional, .required⟩,
    ⟨0xC2, "Wind detection status", .optional, .notApplicable, .required⟩,
    ⟨0xC3, "Sunlight detection status", .optional, .notApplicable, .required⟩,
    ⟨0xD0, "Opening (extension) speed setting", .optional, .optional, .optional⟩,
    ⟨0xD1, "Closing (retraction) speed setting", .optional, .optional, .optional⟩,
    ⟨0xD2, "Operation time", .optional, .optional, .optional⟩,
    ⟨0xD4, "Automatic operation setting", .optional, .optional, .required⟩,
    ⟨0xE0, "Open/close (extension/retraction) setting", .required, .required, .required⟩,
    ⟨0xE1, "Degree-of-opening level", .optional, .optional, .optional⟩,
    ⟨0xE2, "Shade angle setting", .optional, .optional, .optional⟩,
    ⟨0xE3, "Open/close (extension/retraction) speed setting", .optional, .optional, .optional⟩,
    ⟨0xE5, "Electric lock setting", .optional, .optional, .optional⟩,
    ⟨0xE8, "Remote operation setting status", .optional, .notApplicable, .required⟩,
    ⟨0xE9, "Selective opening (extension) operation setting", .optional, .optional, .required⟩,
    ⟨0xEA, "Open/closed (extended/retracted) status", .optional, .notApplicable, .required⟩,
    ⟨0xEE, "One-time opening (extension) speed setting", .optional, .optional, .optional⟩,
    ⟨0xEF, "One-time closing (retraction) speed setting", .optional, .optional, .optional⟩]

/-- database_mra_objects.go:1033-1037 -/
def obj02A3 : RawObj where
  clsName := "Lighting system"
  grpCode := 0x02
  clsCode := 0xA3
  props := [
    ⟨0xB0, "Light level setting", .optional, .optional, .optional⟩,
    ⟨0xC0, "Scene control setting", .required, .required, .optional⟩,
    ⟨0xC1, "Number that can assign scene control setting", .required, .notApplicable, .optional⟩]

/-- database_mra_objects.go:1040-1044 -/
def obj0133 : RawObj where
  clsName := "Ventilation fan"
  grpCode := 0x01
  clsCode := 0x33
  props := [
    ⟨0x80, "Operation status", .required, .required, .required⟩,
    ⟨0xA0, "Set value of ventilation air flow rate", .optional, .optional, .optional⟩,
    ⟨0xBF, "Ventilation Auto setting", .optional, .optional, .optional⟩]

/-- database_mra_objects.go:1047-1068 -/
def obj028E : RawObj where
  clsName := "distributed generator's electric energy meter"
  grpCode := 0x02
  clsCode := 0x8E
  props := [
    ⟨0xD0, "Device type", .required, .notApplicable, .optional⟩,
    ⟨0xD1, "Device ID", .required, .notApplicable, .optional⟩,
    ⟨0xD2, "Tolerance class", .required, .notApplicable, .optional⟩,
    ⟨0xD3, "Number of days to retain historical data of measured cumulative amounts of electric energy", .required, .notApplicable, .optional⟩,
    ⟨0xD4, "Unit for cumulative amounts of electric energy", .required, .notApplicable, .optional⟩,
    ⟨0xD5, "Day on which the historical data of measured cumulative amounts of electric energy is to be retrieved", .requiredC, .required, .optional⟩,
    ⟨0xD6, "Identification number of device to be metered", .optional, .notApplicable, .optional⟩,
    ⟨0xDA, "Current hour, minute, and second setting", .requiredC, .optional, .optional⟩,
    ⟨0xDB, "Time synchronization status", .required, .notApplicable, .optional⟩,
    ⟨0xE0, "Measured cumulative amounts of electric energy (AC input)", .requiredC, .notApplicable, .optional⟩,
    ⟨0xE1, "Historical data of measured cumulative amounts of electric energy (AC input)", .requiredC, .notApplicable, .optional⟩,
    ⟨0xE2, "Measured cumulative amounts of electric energy (AC output)", .requiredC, .notApplicable, .optional⟩,
    ⟨0xE3, "Historical data of measured cumulative amounts of electric energy (AC output)", .requiredC, .notApplicable, .optional⟩,
    ⟨0xE4, "Measured cumulative amounts of electric energy (output during a power outage)", .optional, .notApplicable, .optional⟩,
    ⟨0xE5, "Historical data of measured cumulative amounts of electric energy (output during a power outage )", .optional, .notApplicable, .optional⟩,
    ⟨0xE6, "Cumulative amounts of electric energy measured at fixed time (AC input)", .requiredC, .notApplicable, .optional⟩,
    ⟨0xE7, "Cumulative amounts of electric energy measured at fixed time (AC output)", .requiredC, .notApplicable, .optional⟩,
    ⟨0xE8, "Cumulative amounts of electric energy measured at fixed time (output during a power outage)", .optional, .notApplicable, .optional⟩,
    ⟨0xE9, "Measured instantaneous electric power (AC input/output)", .optional, .notApplicable, .optional⟩,
    ⟨0xEA, "Measured instantaneous electric power (output during a power outage)", .optional, .notApplicable, .optional⟩]

/-- database_mra_objects.go:1071-1080 -/
def obj026F : RawObj where
  clsName := "Electric lock"
  grpCode := 0x02
  clsCode := 0x6F
  props := [
    ⟨0xE0, "Lock setting1", .required, .required, .required⟩,
    ⟨0xE1, "Lock setting 2", .optional, .optional, .optional⟩,
    ⟨0xE2, "Lock status of door guard", .optional, .notApplicable, .optional⟩,
    ⟨0xE3, "Door open/close status", .optional, .notApplicable, .optional⟩,
    ⟨0xE4, "Occupant/ non-occupant status", .optional, .notApplicable, .optional⟩,
    ⟨0xE5, "Alarm status", .optional, .notApplicable, .required⟩,
    ⟨0xE6, "Auto lock mode setting", .optional, .optional, .optional⟩,
    ⟨0xE7, "Battery level", .optional, .optional, .required⟩]

/-- database_mra_objects.go:1083-1086 -/
def obj0282 : RawObj where
  clsName := "Gas meter"
  grpCode := 0x02
  clsCode := 0x82
  props := [
    ⟨0xE0, "Cumulative amount of gas consumption measurement value", .required, .notApplicable, .optional⟩,
    ⟨0xE2, "Cumulative amounts of gas consumption measurement log", .optional, .notApplicable, .optional⟩]

/-- database_mra_objects.go:1089-1112 -/
def obj0134 : RawObj where
  clsName := "Air conditioner ventilation fan"
  grpCode := 0x01
  clsCode := 0x34
  props := [
    ⟨0x80, "Operation status", .required, .required, .required⟩,
    ⟨0xA0, "Set value of ventilation air flow rate", .optional, .optional, .optional⟩,
    ⟨0xB0, "Ventilation mode automatic setting", .optional, .optional, .optional⟩,
    ⟨0xB1, "Ventilation method setting", .optional, .optional, .optional⟩,
    ⟨0xB2, "Ventilation mode setting", .optional, .optional, .required⟩,
    ⟨0xB3, "Cooling / heating high-low setting", .optional, .optional, .optional⟩,
    ⟨0xB4, "Set value of room relative humidity", .optional, .optional, .optional⟩,
    ⟨0xB9, "Measured value of electric current consumption", .optional, .notApplicable, .optional⟩,
    ⟨0xBA, "Measured value of room relative humidity", .optional, .notApplicable, .optional⟩,
    ⟨0xBE, "Measured value of outdoor air temperature", .optional, .notApplicable, .optional⟩,
    ⟨0xBF, "Ventilation auto setting", .optional, .optional, .optional⟩,
    ⟨0xC0, "Measured value of CO2 concentration", .optional, .notApplicable, .optional⟩,
    ⟨0xC1, "Smoke (cigarette) detection status", .optional, .notApplicable, .optional⟩,
    ⟨0xC2, "Pollution detection status", .optional, .notApplicable, .optional⟩,
    ⟨0xCA, "Measured value of outdoor relative humidity", .optional, .notApplicable, .optional⟩,
    ⟨0xD0, "Measured value of return air temperature", .optional, .notApplicable, .optional⟩,
    ⟨0xD1, "Measured value of return relative humidity", .optional, .notApplicable, .optional⟩,
    ⟨0xD2, "Measured value of charging air temperature", .optional, .notApplicable, .optional⟩,
    ⟨0xD3, "Measured value of charging relative humidity", .optional, .notApplicable, .optional⟩,
    ⟨0xD4, "Measured value of discharging air temperature", .optional, .notApplicable, .optional⟩,
    ⟨0xD5, "Measured value of discharging air relative humidity", .optional, .notApplicable, .optional⟩,
    ⟨0xE0, "Heat exchanger operation setting", .optional, .optional, .optional⟩]

/-- database_mra_objects.go:1115-1138 -/
def obj05FF : RawObj where
  clsName := "Controller"
  grpCode := 0x05
  clsCode := 0xFF
  props := [
    ⟨0xC0, "Controller ID", .optional, .notApplicable, .optional⟩,
    ⟨0xC1, "Number of devices controlled", .optional, .notApplicable, .optional⟩,
    ⟨0xC2, "Index", .optional, .optional, .optional⟩,
    ⟨0xC3, "Device ID", .optional, .notApplicable, .optional⟩,
    ⟨0xC4, "Device type", .optional, .notApplicable, .optional⟩,
    ⟨0xC5, "Name", .optional, .notApplicable, .optional⟩,
    ⟨0xC6, "Connection status", .optional, .notApplicable, .optional⟩,
    ⟨0xC7, "Business code of the device to be controlled", .optional, .notApplicable, .optional⟩,
    ⟨0xC7, "Business code of the device to be controlled", .optional, .notApplicable, .optional⟩,
    ⟨0xC8, "Product code of the device to be controlled", .optional, .notApplicable, .optional⟩,
    ⟨0xC8, "Product code of the device to be controlled", .optional, .notApplicable, .optional⟩,
    ⟨0xC9, "Manufacture date of the device to be controlled", .optional, .notApplicable, .optional⟩,
    ⟨0xC9, "Manufacture date of the device to be controlled", .optional, .notApplicable, .optional⟩,
    ⟨0xCA, "Registered information renewal date of the device to be controlled", .optional, .notApplicable, .optional⟩,
    ⟨0xCA, "Registered information renewal date of the device to be controlled", .optional, .notApplicable, .optional⟩,
    ⟨0xCB, "Registered information renewal version information of the device to be controlled", .optional, .notApplicable, .optional⟩,
    ⟨0xCB, "Registered information renewal version information of the device to be controlled", .optional, .notApplicable, .optional⟩,
    ⟨0xCC, "Place to install device to be controlled", .optional, .notApplicable, .optional⟩,
    ⟨0xCD, "Fault status of device to be controlled", .optional, .notApplicable, .optional⟩,
    ⟨0xCE, "Set property map for device to be controlled", .optional, .notApplicable, .optional⟩,
    ⟨0xCF, "Get property map for device to be controlled", .optional, .notApplicable, .optional⟩,
    ⟨0xE0, "Address of installation location", .optional, .notApplicable, .optional⟩]

/-- database_mra_objects.go:1141-1151 -/
def obj02A4 : RawObj where
  clsName := "Extended lighting system"
  grpCode := 0x02
  clsCode := 0xA4
  props := [
    ⟨0xB0, "Light level setting", .optional, .optional, .optional⟩,
    ⟨0xC0, "Scene control setting", .required, .required, .optional⟩,
    ⟨0xC1, "Number that can assign scene control setting.", .required, .notApplicable, .optional⟩,
    ⟨0xC2, "Power consumption rate list", .required, .notApplicable, .optional⟩,
    ⟨0xC3, "Power consumption when fully lighted", .required, .notApplicable, .optional⟩,
    ⟨0xC4, "Possible power savings", .required, .notApplicable, .optional⟩,
    ⟨0xC5, "Power consumption limit setting", .required, .required, .optional⟩,
    ⟨0xC6, "Automatic operation controlling setting", .optional, .optional, .optional⟩,
    ⟨0xC7, "Fading control change time setting", .optional, .optional, .optional⟩]

/-- database_mra_objects.go:1154-1156 -/
def obj0011 : RawObj where
  clsName := "Temperature sensor"
  grpCode := 0x00
  clsCode := 0x11
  props := [
    ⟨0xE0, "Measured temperature value", .required, .notApplicable, .optional⟩]

/-- database_mra_objects.go:1159-1162 -/
def obj0007 : RawObj where
  clsName := "Human detection sensor"
  grpCode := 0x00
  clsCode := 0x07
  props := [
    ⟨0xB0, "Detection threshold level", .optional, .optional, .optional⟩,
    ⟨0xB1, "Human detection status", .required, .notApplicable, .required⟩]

/-- database_mra_objects.go:1165-1200 -/
def obj03B7 : RawObj where
  clsName := "Refrigerator"
  grpCode := 0x03
  clsCode := 0xB7
  props := [
    ⟨0xA0, "Quick freeze function setting", .optional, .optional, .optional⟩,
    ⟨0xA1, "Quick refrigeration function setting", .optional, .optional, .optional⟩,
    ⟨0xA4, "Icemaker setting", .optional, .optional, .optional⟩,
    ⟨0xA5, "Icemaker operation status", .optional, .notApplicable, .optional⟩,
    ⟨0xA6, "Icemaker tank status", .optional, .notApplicable, .optional⟩,
    ⟨0xA8, "Refrigerator compartment humidification function setting", .optional, .optional, .optional⟩,
    ⟨0xA9, "Vegetable compartment humidification function setting", .optional, .optional, .optional⟩,
    ⟨0xAD, "Deodorization function setting", .optional, .optional, .optional⟩,
    ⟨0xB0, "Door open/close status", .requiredO, .notApplicable, .optional⟩,
    ⟨0xB1, "Door open warning", .optional, .notApplicable, .required⟩,
    ⟨0xB2, "Refrigerator compartment door status", .optional, .notApplicable, .optional⟩,
    ⟨0xB3, "Freezer compartment door status", .optional, .notApplicable, .optional⟩,
    ⟨0xB4, "Ice compartment door status", .optional, .notApplicable, .optional⟩,
    ⟨0xB5, "Vegetable compartment door status", .optional, .notApplicable, .optional⟩,
    ⟨0xB6, "Multi-refrigerating mode compartment door status", .optional, .notApplicable, .optional⟩,
    ⟨0xD1, "Measured refrigerator compartment temperature", .optional, .notApplicable, .optional⟩,
    ⟨0xD2, "Measured freezer compartment temperature", .optional, .notApplicable, .optional⟩,
    ⟨0xD3, "Measured subzero-fresh compartment temperature", .optional, .notApplicable, .optional⟩,
    ⟨0xD4, "Measured vegetable compartment temperature", .optional, .notApplicable, .optional⟩,
    ⟨0xD5, "Measured multi-refrigerating mode compartment temperature", .optional, .notApplicable, .optional⟩,
    ⟨0xD8, "Compressor rotation speed", .optional, .notApplicable, .optional⟩,
    ⟨0xDA, "Measured electric current consumption", .optional, .notApplicable, .optional⟩,
    ⟨0xDC, "Rated power consumption", .optional, .notApplicable, .optional⟩,
    ⟨0xE0, "Maximum allowable temperature setting level", .optional, .notApplicable, .optional⟩,
    ⟨0xE2, "Refrigerator compartment temperature setting", .optional, .optional, .optional⟩,
    ⟨0xE3, "Freezer compartment temperature setting", .optional, .optional, .optional⟩,
    ⟨0xE4, "Ice compartment temperature setting", .optional, .optional, .optional⟩,
    ⟨0xE5, "Vegetable compartment temperature setting", .optional, .optional, .optional⟩,
    ⟨0xE6, "Multi-refrigerating mode compartment temperature setting", .optional, .optional, .optional⟩,
    ⟨0xE9, "Refrigerator compartment temperature level setting", .optional, .optional, .optional⟩,
    ⟨0xEA, "Freezer compartment temperature level setting", .optional, .optional, .optional⟩,
    ⟨0xEB, "Ice compartment temperature level setting", .optional, .optional, .optional⟩,
    ⟨0xEC, "Vegetable compartment temperature level setting", .optional, .optional, .optional⟩,
    ⟨0xED, "Multi-refrigerating mode compartment temperature level setting", .optional, .optional, .optional⟩]

/-- database_mra_objects.go:1203-1215 -/
def obj02A5 : RawObj where
  clsName := "Multiple input pcs"
  grpCode := 0x02
  clsCode := 0xA5
  props := [
    ⟨0x80, "Operation status", .required, .optional, .required⟩,
    ⟨0x83, "Identification number", .required, .notApplicable, .optional⟩,
    ⟨0x89, "Fault description", .required, .notApplicable, .optional⟩,
    ⟨0x8C, "Product code", .required, .notApplicable, .optional⟩,
    ⟨0x97, "Current time setting", .required, .optional, .optional⟩,
    ⟨0x98, "Current date setting", .required, .optional, .optional⟩,
    ⟨0xD0, "System interconnection status", .required, .notApplicable, .optional⟩,
    ⟨0xE0, "Measured cumulative amount of electric energy (normal direction)", .required, .notApplicable, .optional⟩,
    ⟨0xE3, "Measured cumulative amount of electric energy (reverse direction)", .required, .notApplicable, .optional⟩,
    ⟨0xE7, "Measured instantaneous electric power", .required, .notApplicable, .optional⟩,
    ⟨0xE8, "List of connected devices", .required, .notApplicable, .optional⟩]

/-- database_mra_objects.go:1218-1225 -/
def obj0135 : RawObj where
  clsName := "Air cleaner"
  grpCode := 0x01
  clsCode := 0x35
  props := [
    ⟨0x80, "Operation status", .required, .required, .required⟩,
    ⟨0xA0, "Air flow rate setting", .optional, .optional, .optional⟩,
    ⟨0xC0, "Air pollution detection status", .optional, .notApplicable, .optional⟩,
    ⟨0xC1, "Smoke (cigarette) detection status", .optional, .notApplicable, .optional⟩,
    ⟨0xC2, "Optical catalyst operation setting", .optional, .optional, .optional⟩,
    ⟨0xE1, "Filter change notice", .optional, .notApplicable, .optional⟩]

/-- database_mra_objects.go:1228-1247 -/
def obj0288 : RawObj where
  clsName := "Low-voltage smart electric energy meter"
  grpCode := 0x02
  clsCode := 0x88
  props := [
    ⟨0xC0, "Route B Identification number", .requiredC, .notApplicable, .optional⟩,
    ⟨0xD0, "One-minute measured cumulative amounts of electric energy measured (normal and reverse directions)", .required, .notApplicable, .optional⟩,
    ⟨0xD3, "Coefficient", .optional, .notApplicable, .optional⟩,
    ⟨0xD7, "Number of effective digits for cumulative amounts of electric energy", .required, .notApplicable, .optional⟩,
    ⟨0xE0, "Measured cumulative amount of electric energy (normal direction)", .required, .notApplicable, .optional⟩,
    ⟨0xE1, "Unit for cumulative amounts of electric energy (normal and reverse directions)", .required, .notApplicable, .optional⟩,
    ⟨0xE2, "Historical data of measured cumulative amounts of electric energy 1 (normal direction)", .required, .notApplicable, .optional⟩,
    ⟨0xE3, "Measured cumulative amount of electric energy (reverse direction)", .requiredC, .notApplicable, .optional⟩,
    ⟨0xE4, "Historical data of measured cumulative amounts of electric energy 1 (reverse direction)", .requiredC, .notApplicable, .optional⟩,
    ⟨0xE5, "Day for which the historical data of measured cumulative amounts of electric energy is to be retrieved 1", .required, .required, .optional⟩,
    ⟨0xE7, "Measured instantaneous electric power", .required, .notApplicable, .optional⟩,
    ⟨0xE8, "Measured instantaneous currents", .required, .notApplicable, .optional⟩,
    ⟨0xEA, "Cumulative amounts of electric energy measured at fixed time (normal direction)", .required, .notApplicable, .optional⟩,
    ⟨0xEB, "Cumulative amounts of electric energy measured at fixed time (reverse direction)", .requiredC, .notApplicable, .optional⟩,
    ⟨0xEC, "Historical data of measured cumulative amounts of electric energy 2 (normal and reverse directions)", .optional, .notApplicable, .optional⟩,
    ⟨0xED, "Day for which the historical data of measured cumulative amounts of electric energy is to be retrieved 2", .optional, .optional, .optional⟩,
    ⟨0xEE, "Historical data of measured cumulative amounts of electric energy 3 (normal and reverse directions)", .required, .notApplicable, .optional⟩,
    ⟨0xEF, "Day for which the historical data of measured cumulative amounts of electric energy is to be retrieved 3", .required, .required, .optional⟩]

/-- All objects in the order of `initObjects` (database_mra_objects.go:36-1249). -/
def table : List RawObj := [
  obj0000, obj0EF0, obj02A6, obj05FD, obj0272, obj03CE,
  obj00D0, obj0602, obj027E, obj0157, obj0012, obj0291,
  obj0287, obj026B, obj0290, obj027D, obj0156, obj03BB,
  obj028A, obj03B9, obj001D, obj0273, obj03D4, obj02A7,
  obj027C, obj0002, obj0281, obj0130, obj0022, obj03D3,
  obj028F, obj0263, obj001B, obj0023, obj02A1, obj0280,
  obj0003, obj0279, obj027B, obj0016, obj027A, obj028D,
  obj0260, obj02A3, obj0133, obj028E, obj026F, obj0282,
  obj0134, obj05FF, obj02A4, obj0011, obj0007, obj03B7,
  obj02A5, obj0135, obj0288]

end Verif.Model.Mra
