/-!
Names used by /repo/elgas/parameters: object types, classes, attributes and local variables.
Written by tools/gen_parameters.py.
-/
namespace Elgas

/-- `ParameterObjectType` elgas/parameters/enumerations.py:32-71. -/
inductive ObjType
  | SYSTEM_PARAMETER
  | ANALOG_MEASURAND
  | BINARY
  | COUNTER
  | STANDARD_COUNTER
  | FLOW_RATE
  | STANDARD_FLOW_RATE
  | CONVERSION_COEFFICIENT
  | ERROR_COUNTER
  | ERROR_STANDARD_COUNTER
  | COMPRESSIBILITY
  | TIME_WINDOW
  | CORRECTION_COUNTER
  | DOUBLE_COUNTER
  | DOUBLE_ERROR_COUNTER
  | DIAGNOSTICS
  | DEVICE_ERROR
  | SUM_OF_ALARMS
  | TIMER
  | TARIFF_COUNTER
  | BASE_TARIFF_COUNTER
  | SET_POINT
  | DIFFERENCE_COUNTER
  | DIFFERENCE_BASE_COUNTER
  | COMPRESSIBILITY_Z
  | COMPRESSIBILITY_Z_BASE
  | ENERGY
  | ERROR_ENERGY
  | DOUBLE_TARIFF_COUNTER
  | ANALOG_STATISTICS
  | COUNTER_STATISTICS
  | STANDARD_COUNTER_STATISTICS
  | STATISTICS
  | ANALOG_TIME_STATISTICS
  | TIME_STATISTICS
  | MODEM
  deriving DecidableEq, Repr

/-- The value of an enumeration member (same lines). enumerations.py. -/
def ObjType.value : ObjType → Nat
  | .SYSTEM_PARAMETER => 0
  | .ANALOG_MEASURAND => 30
  | .BINARY => 31
  | .COUNTER => 32
  | .STANDARD_COUNTER => 33
  | .FLOW_RATE => 34
  | .STANDARD_FLOW_RATE => 35
  | .CONVERSION_COEFFICIENT => 36
  | .ERROR_COUNTER => 45
  | .ERROR_STANDARD_COUNTER => 46
  | .COMPRESSIBILITY => 47
  | .TIME_WINDOW => 48
  | .CORRECTION_COUNTER => 49
  | .DOUBLE_COUNTER => 53
  | .DOUBLE_ERROR_COUNTER => 54
  | .DIAGNOSTICS => 59
  | .DEVICE_ERROR => 61
  | .SUM_OF_ALARMS => 62
  | .TIMER => 65
  | .TARIFF_COUNTER => 68
  | .BASE_TARIFF_COUNTER => 69
  | .SET_POINT => 70
  | .DIFFERENCE_COUNTER => 72
  | .DIFFERENCE_BASE_COUNTER => 73
  | .COMPRESSIBILITY_Z => 74
  | .COMPRESSIBILITY_Z_BASE => 75
  | .ENERGY => 77
  | .ERROR_ENERGY => 78
  | .DOUBLE_TARIFF_COUNTER => 79
  | .ANALOG_STATISTICS => 80
  | .COUNTER_STATISTICS => 81
  | .STANDARD_COUNTER_STATISTICS => 82
  | .STATISTICS => 83
  | .ANALOG_TIME_STATISTICS => 84
  | .TIME_STATISTICS => 85
  | .MODEM => 141

/-- All members in order of definition (same lines). enumerations.py. -/
def ObjType.all : List ObjType := [.SYSTEM_PARAMETER,
  .ANALOG_MEASURAND,
  .BINARY,
  .COUNTER,
  .STANDARD_COUNTER,
  .FLOW_RATE,
  .STANDARD_FLOW_RATE,
  .CONVERSION_COEFFICIENT,
  .ERROR_COUNTER,
  .ERROR_STANDARD_COUNTER,
  .COMPRESSIBILITY,
  .TIME_WINDOW,
  .CORRECTION_COUNTER,
  .DOUBLE_COUNTER,
  .DOUBLE_ERROR_COUNTER,
  .DIAGNOSTICS,
  .DEVICE_ERROR,
  .SUM_OF_ALARMS,
  .TIMER,
  .TARIFF_COUNTER,
  .BASE_TARIFF_COUNTER,
  .SET_POINT,
  .DIFFERENCE_COUNTER,
  .DIFFERENCE_BASE_COUNTER,
  .COMPRESSIBILITY_Z,
  .COMPRESSIBILITY_Z_BASE,
  .ENERGY,
  .ERROR_ENERGY,
  .DOUBLE_TARIFF_COUNTER,
  .ANALOG_STATISTICS,
  .COUNTER_STATISTICS,
  .STANDARD_COUNTER_STATISTICS,
  .STATISTICS,
  .ANALOG_TIME_STATISTICS,
  .TIME_STATISTICS,
  .MODEM]

/-- The classes of elgas/parameters/*.py that `from_bytes` can construct. -/
inductive Cls
  | SystemParameters
  | AnalogQuantity
  | Binary
  | Counter
  | StandardCounter
  | FlowRate
  | StandardFlowRate
  | ConversionCoefficient
  | ErrorCounter
  | ErrorStandardCounter
  | Compressibility
  | TimeWindow
  | DoubleCounter
  | DoubleErrorCounter
  | Diagnostics
  | SetPoint
  | CompressibilityZ
  | CompressibilityZBase
  | Energy
  | ErrorEnergy
  | TariffCounter
  | DoubleTariffCounter
  | BaseTariffCounter
  | DifferenceCounter
  | DifferenceBaseCounter
  | Timer
  | DeviceError
  | SumOfAlarms
  | AnalogStatistics
  | Statistics
  | AnalogTimeStatistics
  | TimeStatistics
  | CounterStatistics
  | StandardCounterStatistics
  | Modem
  | CorrectionCounter
  | GasComposition
  deriving DecidableEq, Repr

/-- Attribute and local variable names in elgas/parameters/*.py (`underscore` is `_`). -/
inductive Attr
  | device_type
  | serial_number
  | firmware_version
  | service_version
  | certification_variant
  | station_id
  | data_access
  | password_for_full_access_active
  | password_for_reading_is_on
  | metrological_switch
  | user_switch
  | switch_function
  | parameter_crc
  | measuring_period
  | archiving_period
  | base_pressure
  | base_temperature
  | compressibility_formula
  | gas_composition
  | data_archive_record_length
  | binary_archive_record_length
  | daily_archive_record_length
  | monthly_archive_record_length
  | instantaneous_values_error_bit_order
  | binary_archive_record_error_bit_order
  | data_archive_record_error_bit_order
  | optical_port_speed
  | optical_port_protocol
  | optical_port_bit_control
  | communication_port_0_speed
  | communication_port_0_protocol
  | communication_port_0_bit_control
  | communication_port_1_speed
  | communication_port_1_protocol
  | communication_port_1_bit_control
  | communication_port_2_speed
  | communication_port_2_protocol
  | communication_port_2_bit_control
  | gas_hour
  | fixed_barometric_pressure
  | altitude
  | status_archive_record_length
  | pressure_unit_type
  | pressure_unit_text
  | temperature_unit_type
  | temperature_unit_text
  | altitude_unit_type
  | altitude_unit_text
  | gross_calorific_value_type
  | gross_calorific_value_text
  | dst_region
  | gmt_hour_shift
  | billing_archive_record_length
  | conditions_for_combustion_heat
  | device_variant
  | underscore
  | bit_control
  | corrected_volume_counters_amount
  | device_features_bits
  | device_features
  | version_metrological_part
  | metrological_crc
  | metrological_crc_32
  | application_crc_32
  | archive_period
  | gas_day_hour
  | places_for_corrected_volume_counters
  | number
  | id
  | address_in_actual_values
  | address_in_data_archive_record
  | in_data_archive
  | in_daily_archive
  | in_monthly_archive
  | is_metrological_quantity
  | in_fast_archive_1
  | in_fast_archvie_2
  | name
  | unit
  | digit
  | offset
  | lower_limit_measuring_range
  | upper_limit_measuring_range
  | serial_number_transducer
  | error_bit_order_in_actual_values
  | error_bit_order_in_binary_archive
  | error_bit_order_in_data_archive
  | address_in_daily_archive_record
  | address_in_monthly_archive_record
  | samples_in_fast_archive
  | decimals
  | bit_order_in_actual_values
  | bit_order_in_data_archive_record
  | bit_order_in_binary_archive_record
  | in_binary_archive
  | active_indicator
  | error_bit_order_in_binary_archive_record
  | error_bit_order_in_data_archive_record
  | action_during_change
  | text_log_0
  | text_log_1
  | in_factory_archive
  | accept_counting_direction
  | serial_number_of_gas_meter
  | address_in_billing_archive_record
  | serial_number_of_gas_meter_text
  | number_of_primary_counter
  | number_of_conversion
  | number_of_primary_flow_rate
  | number_of_analog_pressure
  | number_of_analog_temperature
  | compressibility_calculation_method
  | default_value_pressure
  | default_value_temperature
  | alternate_value_of_compressibility
  | number_of_standard_counter
  | number_of_conversion_coefficient
  | rows_in_window
  | rows
  | mask_1_of_status_archive
  | mask_2_of_status_archive
  | mask_1_of_alarm
  | mask_2_of_alarm
  | mask_1_of_calling_to_dispatching
  | mask_2_of_calling_to_dispatching
  | value_of_limit
  | type_of_primary_quantity
  | number_of_primary_quantity
  | number_of_calorific_value
  | tariff
  | number_of_base_counter
  | is_double
  | statistics_type
  | bit_control_0
  | title
  | modem_type
  | initialization
  | call_to_dispatching
  | modem_hang_up
  | special_initialization
  | ip_address_for_registration_and_diagnostics
  | ip_address_for_calling_to_dispatching
  | registration_send_period
  | authentication_mode
  | port_for_registration
  | port_for_calling_to_dispatching
  | sms_call
  | gprs_user_name
  | gprs_password
  | ip_address_for_ping
  | ping_period
  | transition_into_command_mode
  | pin
  | owner_sim_number
  deriving DecidableEq, Repr

/-- The attributes of `GasComposition` elgas/parameters/gas_composition.py:11-64. -/
inductive GasAttr
  | co2
  | n2
  | combustion_heat
  | relative_density
  | h2
  | h2s
  | he
  | h2o
  | o2
  | ar
  | co
  | c1h4
  | c2h6
  | c3h8
  | ic4h10
  | nc4h10
  | ic5h12
  | nc5h12
  | c6h14
  | c7h16
  | c8h18
  | c9h20
  | c10h22
  deriving DecidableEq, Repr

/-- `GasComposition` attributes in order, gas_composition.py:12-34. -/
def gasFields : List GasAttr := [.co2, .n2, .combustion_heat, .relative_density, .h2, .h2s, .he, .h2o, .o2, .ar, .co, .c1h4, .c2h6, .c3h8, .ic4h10, .nc4h10, .ic5h12, .nc5h12, .c6h14, .c7h16, .c8h18, .c9h20, .c10h22]

/-- Order in which `GasComposition.from_bytes` reads them, gas_composition.py:37-64. -/
def gasOrder : List GasAttr := [.co2, .n2, .combustion_heat, .relative_density, .h2, .h2s, .he, .h2o, .o2, .ar, .co, .c1h4, .c2h6, .c3h8, .ic4h10, .nc4h10, .ic5h12, .nc5h12, .c6h14, .c7h16, .c8h18, .c9h20, .c10h22]

end Elgas
