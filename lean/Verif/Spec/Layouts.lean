import Verif.Spec.Parameters
/-!
Byte layouts of the parameter objects: size of the fixed part, size of the optional tail (0: none),
whether surplus bytes are rejected, and for every attribute where it is found.
Written by tools/gen_layouts.py.
-/
namespace Spec
open Elgas

/-- `SystemParameters`. -/
def systemParametersLayout : Layout where
  size := 267
  tail := 0
  strict := true
  fields := [
    (.device_type, .uint 0 1),
    (.serial_number, .uint 1 4),
    (.firmware_version, .text 5 5),
    (.service_version, .uint 10 1),
    (.certification_variant, .uint 11 1),
    (.station_id, .text 12 17),
    (.password_for_full_access_active, .flag 29 0),
    (.password_for_reading_is_on, .flag 29 1),
    (.metrological_switch, .flag 29 2),
    (.user_switch, .flag 29 3),
    (.switch_function, .bits 29 4 2),
    (.parameter_crc, .uint 30 2),
    (.measuring_period, .uint 32 1),
    (.archive_period, .uint 33 2),
    (.base_pressure, .float32 35),
    (.base_temperature, .float32 39),
    (.compressibility_formula, .uint 43 1),
    (.gas_composition, .gas 44),
    (.data_archive_record_length, .uint 136 2),
    (.binary_archive_record_length, .uint 138 2),
    (.daily_archive_record_length, .uint 140 2),
    (.monthly_archive_record_length, .uint 142 2),
    (.instantaneous_values_error_bit_order, .uint 144 2),
    (.binary_archive_record_error_bit_order, .uint 146 2),
    (.data_archive_record_error_bit_order, .uint 148 2),
    (.optical_port_speed, .uint 150 1),
    (.optical_port_protocol, .uint 151 1),
    (.optical_port_bit_control, .uint 152 1),
    (.communication_port_0_speed, .uint 153 1),
    (.communication_port_0_protocol, .uint 154 1),
    (.communication_port_0_bit_control, .uint 155 1),
    (.communication_port_1_speed, .uint 156 1),
    (.communication_port_1_protocol, .uint 157 1),
    (.communication_port_1_bit_control, .uint 158 1),
    (.communication_port_2_speed, .uint 159 1),
    (.communication_port_2_protocol, .uint 160 1),
    (.communication_port_2_bit_control, .uint 161 1),
    (.gas_day_hour, .uint 162 1),
    (.fixed_barometric_pressure, .float32 163),
    (.altitude, .float32 167),
    (.status_archive_record_length, .uint 188 2),
    (.pressure_unit_type, .uint 190 1),
    (.pressure_unit_text, .text 191 8),
    (.temperature_unit_type, .uint 199 1),
    (.temperature_unit_text, .text 200 8),
    (.altitude_unit_type, .uint 208 1),
    (.altitude_unit_text, .text 209 8),
    (.gross_calorific_value_type, .uint 217 1),
    (.gross_calorific_value_text, .text 218 8),
    (.dst_region, .uint 226 1),
    (.gmt_hour_shift, .uint 227 1),
    (.billing_archive_record_length, .uint 228 2),
    (.conditions_for_combustion_heat, .uint 230 1),
    (.device_variant, .uint 231 1),
    (.bit_control, .uint 233 1),
    (.places_for_corrected_volume_counters, .uint 234 1),
    (.device_features_bits, .uint 235 1),
    (.device_features, .hex 236 16),
    (.version_metrological_part, .text 252 5),
    (.metrological_crc, .uint 257 2),
    (.metrological_crc_32, .uint 259 4),
    (.application_crc_32, .uint 263 4)]

/-- `AnalogQuantity`. -/
def analogQuantityLayout : Layout where
  size := 71
  tail := 1
  strict := false
  fields := [
    (.number, .uint 0 2),
    (.id, .uint 2 2),
    (.address_in_actual_values, .uint 4 2),
    (.address_in_data_archive_record, .uint 6 2),
    (.bit_control, .uint 8 1),
    (.in_data_archive, .flag 8 0),
    (.in_daily_archive, .flag 8 1),
    (.in_monthly_archive, .flag 8 2),
    (.is_metrological_quantity, .flag 8 4),
    (.in_fast_archive_1, .flag 8 5),
    (.in_fast_archvie_2, .flag 8 6),
    (.name, .text 9 23),
    (.unit, .text 32 8),
    (.digit, .float32Rounded 40 7),
    (.offset, .float32 44),
    (.lower_limit_measuring_range, .float32Rounded 48 7),
    (.upper_limit_measuring_range, .float32 52),
    (.serial_number_transducer, .uint 56 4),
    (.error_bit_order_in_actual_values, .uint 60 2),
    (.error_bit_order_in_binary_archive, .uint 62 2),
    (.error_bit_order_in_data_archive, .uint 64 2),
    (.address_in_daily_archive_record, .uint 66 2),
    (.address_in_monthly_archive_record, .uint 68 2),
    (.samples_in_fast_archive, .uint 70 1),
    (.decimals, .optional (.uint 71 1))]

/-- `Binary`. -/
def binaryLayout : Layout where
  size := 40
  tail := 27
  strict := true
  fields := [
    (.number, .uint 0 2),
    (.id, .uint 2 2),
    (.bit_order_in_actual_values, .uint 4 2),
    (.bit_order_in_data_archive_record, .uint 6 2),
    (.bit_order_in_binary_archive_record, .uint 8 2),
    (.bit_control, .uint 10 1),
    (.in_binary_archive, .flag 10 0),
    (.in_data_archive, .flag 10 1),
    (.active_indicator, .flag 10 6),
    (.name, .text 11 23),
    (.error_bit_order_in_actual_values, .uint 34 2),
    (.error_bit_order_in_binary_archive_record, .uint 36 2),
    (.error_bit_order_in_data_archive_record, .uint 38 2),
    (.action_during_change, .optional (.uint 40 1)),
    (.text_log_0, .optional (.text 41 13)),
    (.text_log_1, .optional (.text 54 13))]

/-- `Counter`. -/
def counterLayout : Layout where
  size := 81
  tail := 1
  strict := false
  fields := [
    (.number, .uint 0 2),
    (.id, .uint 2 2),
    (.address_in_actual_values, .uint 4 2),
    (.address_in_data_archive_record, .uint 6 2),
    (.bit_control, .uint 8 1),
    (.in_data_archive, .flag 8 0),
    (.in_daily_archive, .flag 8 1),
    (.in_monthly_archive, .flag 8 2),
    (.in_factory_archive, .flag 8 3),
    (.is_metrological_quantity, .flag 8 4),
    (.accept_counting_direction, .flag 8 6),
    (.name, .text 9 23),
    (.unit, .text 32 8),
    (.digit, .float64 40),
    (.serial_number_of_gas_meter, .uint 48 4),
    (.error_bit_order_in_actual_values, .uint 52 2),
    (.error_bit_order_in_binary_archive, .uint 54 2),
    (.error_bit_order_in_data_archive, .uint 56 2),
    (.address_in_daily_archive_record, .uint 58 2),
    (.address_in_monthly_archive_record, .uint 60 2),
    (.address_in_billing_archive_record, .uint 62 2),
    (.serial_number_of_gas_meter_text, .text 64 17),
    (.decimals, .optional (.uint 81 1))]

/-- `StandardCounter`. -/
def standardCounterLayout : Layout where
  size := 48
  tail := 1
  strict := true
  fields := [
    (.number, .uint 0 2),
    (.id, .uint 2 2),
    (.address_in_actual_values, .uint 4 2),
    (.address_in_data_archive_record, .uint 6 2),
    (.bit_control, .uint 8 1),
    (.in_data_archive, .flag 8 0),
    (.in_daily_archive, .flag 8 1),
    (.in_monthly_archive, .flag 8 2),
    (.in_factory_archive, .flag 8 3),
    (.is_metrological_quantity, .flag 8 4),
    (.name, .text 9 23),
    (.unit, .text 32 8),
    (.number_of_primary_counter, .uint 40 1),
    (.number_of_conversion, .uint 41 1),
    (.address_in_daily_archive_record, .uint 42 2),
    (.address_in_monthly_archive_record, .uint 44 2),
    (.address_in_billing_archive_record, .uint 46 2),
    (.decimals, .optional (.uint 48 1))]

/-- `FlowRate`. -/
def flowRateLayout : Layout where
  size := 50
  tail := 1
  strict := false
  fields := [
    (.number, .uint 0 2),
    (.id, .uint 2 2),
    (.address_in_actual_values, .uint 4 2),
    (.address_in_data_archive_record, .uint 6 2),
    (.bit_control, .uint 8 1),
    (.in_data_archive, .flag 8 0),
    (.in_daily_archive, .flag 8 1),
    (.in_monthly_archive, .flag 8 2),
    (.is_metrological_quantity, .flag 8 4),
    (.name, .text 9 23),
    (.unit, .text 32 8),
    (.error_bit_order_in_actual_values, .uint 40 2),
    (.error_bit_order_in_binary_archive, .uint 42 2),
    (.error_bit_order_in_data_archive, .uint 44 2),
    (.address_in_daily_archive_record, .uint 46 2),
    (.address_in_monthly_archive_record, .uint 48 2),
    (.decimals, .optional (.uint 50 1))]

/-- `StandardFlowRate`. -/
def standardFlowRateLayout : Layout where
  size := 46
  tail := 1
  strict := false
  fields := [
    (.number, .uint 0 2),
    (.id, .uint 2 2),
    (.address_in_actual_values, .uint 4 2),
    (.address_in_data_archive_record, .uint 6 2),
    (.bit_control, .uint 8 1),
    (.in_data_archive, .flag 8 0),
    (.in_daily_archive, .flag 8 1),
    (.in_monthly_archive, .flag 8 2),
    (.is_metrological_quantity, .flag 8 4),
    (.name, .text 9 23),
    (.unit, .text 32 8),
    (.number_of_primary_flow_rate, .uint 40 1),
    (.number_of_conversion, .uint 41 1),
    (.address_in_daily_archive_record, .uint 42 2),
    (.address_in_monthly_archive_record, .uint 44 2),
    (.decimals, .optional (.uint 46 1))]

/-- `ConversionCoefficient`. -/
def conversionCoefficientLayout : Layout where
  size := 51
  tail := 1
  strict := false
  fields := [
    (.number, .uint 0 2),
    (.id, .uint 2 2),
    (.address_in_actual_values, .uint 4 2),
    (.address_in_data_archive_record, .uint 6 2),
    (.bit_control, .uint 8 1),
    (.in_data_archive, .flag 8 0),
    (.in_daily_archive, .flag 8 1),
    (.in_monthly_archive, .flag 8 2),
    (.is_metrological_quantity, .flag 8 4),
    (.name, .text 9 23),
    (.number_of_analog_pressure, .uint 32 1),
    (.number_of_analog_temperature, .uint 33 1),
    (.compressibility_calculation_method, .uint 34 1),
    (.default_value_pressure, .float32 35),
    (.default_value_temperature, .float32 39),
    (.alternate_value_of_compressibility, .float32 43),
    (.address_in_daily_archive_record, .uint 47 2),
    (.address_in_monthly_archive_record, .uint 49 2),
    (.decimals, .optional (.uint 51 1))]

/-- `ErrorCounter`. -/
def errorCounterLayout : Layout where
  size := 55
  tail := 1
  strict := false
  fields := [
    (.number, .uint 0 2),
    (.id, .uint 2 2),
    (.address_in_actual_values, .uint 4 2),
    (.address_in_data_archive_record, .uint 6 2),
    (.bit_control, .uint 8 1),
    (.in_data_archive, .flag 8 0),
    (.in_daily_archive, .flag 8 1),
    (.in_monthly_archive, .flag 8 2),
    (.in_factory_archive, .flag 8 3),
    (.is_metrological_quantity, .flag 8 4),
    (.name, .text 9 23),
    (.unit, .text 32 8),
    (.digit, .float64 40),
    (.number_of_primary_counter, .uint 48 1),
    (.address_in_daily_archive_record, .uint 49 2),
    (.address_in_monthly_archive_record, .uint 51 2),
    (.address_in_billing_archive_record, .uint 53 2),
    (.decimals, .optional (.uint 55 1))]

/-- `ErrorStandardCounter`. -/
def errorStandardCounterLayout : Layout where
  size := 47
  tail := 1
  strict := false
  fields := [
    (.number, .uint 0 2),
    (.id, .uint 2 2),
    (.address_in_actual_values, .uint 4 2),
    (.address_in_data_archive_record, .uint 6 2),
    (.bit_control, .uint 8 1),
    (.in_data_archive, .flag 8 0),
    (.in_daily_archive, .flag 8 1),
    (.in_monthly_archive, .flag 8 2),
    (.in_factory_archive, .flag 8 3),
    (.is_metrological_quantity, .flag 8 4),
    (.name, .text 9 23),
    (.unit, .text 32 8),
    (.number_of_standard_counter, .uint 40 1),
    (.address_in_daily_archive_record, .uint 41 2),
    (.address_in_monthly_archive_record, .uint 43 2),
    (.address_in_billing_archive_record, .uint 45 2),
    (.decimals, .optional (.uint 47 1))]

/-- `Compressibility`. -/
def compressibilityLayout : Layout where
  size := 37
  tail := 1
  strict := false
  fields := [
    (.number, .uint 0 2),
    (.id, .uint 2 2),
    (.address_in_actual_values, .uint 4 2),
    (.address_in_data_archive_record, .uint 6 2),
    (.bit_control, .uint 8 1),
    (.in_data_archive, .flag 8 0),
    (.in_daily_archive, .flag 8 1),
    (.in_monthly_archive, .flag 8 2),
    (.is_metrological_quantity, .flag 8 4),
    (.name, .text 9 23),
    (.number_of_conversion_coefficient, .uint 32 1),
    (.address_in_daily_archive_record, .uint 33 2),
    (.address_in_monthly_archive_record, .uint 35 2),
    (.decimals, .optional (.uint 37 1))]

/-- `DoubleCounter`. -/
def doubleCounterLayout : Layout where
  size := 81
  tail := 1
  strict := false
  fields := [
    (.number, .uint 0 2),
    (.id, .uint 2 2),
    (.address_in_actual_values, .uint 4 2),
    (.address_in_data_archive_record, .uint 6 2),
    (.bit_control, .uint 8 1),
    (.in_data_archive, .flag 8 0),
    (.in_daily_archive, .flag 8 1),
    (.in_monthly_archive, .flag 8 2),
    (.in_factory_archive, .flag 8 3),
    (.is_metrological_quantity, .flag 8 4),
    (.accept_counting_direction, .flag 8 6),
    (.name, .text 9 23),
    (.unit, .text 32 8),
    (.digit, .float64 40),
    (.serial_number_of_gas_meter, .uint 48 4),
    (.error_bit_order_in_actual_values, .uint 52 2),
    (.error_bit_order_in_binary_archive, .uint 54 2),
    (.error_bit_order_in_data_archive, .uint 56 2),
    (.address_in_daily_archive_record, .uint 58 2),
    (.address_in_monthly_archive_record, .uint 60 2),
    (.address_in_billing_archive_record, .uint 62 2),
    (.serial_number_of_gas_meter_text, .text 64 17),
    (.decimals, .optional (.uint 81 1))]

/-- `DoubleErrorCounter`. -/
def doubleErrorCounterLayout : Layout where
  size := 55
  tail := 1
  strict := false
  fields := [
    (.number, .uint 0 2),
    (.id, .uint 2 2),
    (.address_in_actual_values, .uint 4 2),
    (.address_in_data_archive_record, .uint 6 2),
    (.bit_control, .uint 8 1),
    (.in_data_archive, .flag 8 0),
    (.in_daily_archive, .flag 8 1),
    (.in_monthly_archive, .flag 8 2),
    (.in_factory_archive, .flag 8 3),
    (.is_metrological_quantity, .flag 8 4),
    (.name, .text 9 23),
    (.unit, .text 32 8),
    (.digit, .float64 40),
    (.number_of_primary_counter, .uint 48 1),
    (.address_in_daily_archive_record, .uint 49 2),
    (.address_in_monthly_archive_record, .uint 51 2),
    (.address_in_billing_archive_record, .uint 53 2),
    (.decimals, .optional (.uint 55 1))]

/-- `Diagnostics`. -/
def diagnosticsLayout : Layout where
  size := 61
  tail := 0
  strict := false
  fields := [
    (.number, .uint 0 2),
    (.id, .uint 2 2),
    (.address_in_actual_values, .uint 4 2),
    (.address_in_data_archive_record, .uint 6 2),
    (.bit_control, .uint 8 1),
    (.in_data_archive, .flag 8 0),
    (.in_daily_archive, .flag 8 1),
    (.in_monthly_archive, .flag 8 2),
    (.in_factory_archive, .flag 8 3),
    (.name, .text 9 23),
    (.address_in_daily_archive_record, .uint 32 2),
    (.address_in_monthly_archive_record, .uint 34 2),
    (.mask_1_of_status_archive, .uint 36 4),
    (.mask_2_of_status_archive, .uint 40 4),
    (.mask_1_of_alarm, .uint 44 4),
    (.mask_2_of_alarm, .uint 48 4),
    (.mask_1_of_calling_to_dispatching, .uint 52 4),
    (.mask_2_of_calling_to_dispatching, .uint 56 4),
    (.action_during_change, .uint 60 1)]

/-- `SetPoint`. -/
def setPointLayout : Layout where
  size := 40
  tail := 27
  strict := true
  fields := [
    (.number, .uint 0 2),
    (.id, .uint 2 2),
    (.bit_order_in_actual_values, .uint 4 2),
    (.bit_order_in_data_archive_record, .uint 6 2),
    (.bit_order_in_binary_archive_record, .uint 8 2),
    (.bit_control, .uint 10 1),
    (.in_binary_archive, .flag 10 0),
    (.in_data_archive, .flag 10 1),
    (.active_indicator, .flag 10 6),
    (.name, .text 11 23),
    (.value_of_limit, .float32 34),
    (.type_of_primary_quantity, .uint 38 1),
    (.number_of_primary_quantity, .uint 39 1),
    (.action_during_change, .optional (.uint 40 1)),
    (.text_log_0, .optional (.text 41 13)),
    (.text_log_1, .optional (.text 54 13))]

/-- `CompressibilityZ`. -/
def compressibilityZLayout : Layout where
  size := 37
  tail := 1
  strict := false
  fields := [
    (.number, .uint 0 2),
    (.id, .uint 2 2),
    (.address_in_actual_values, .uint 4 2),
    (.address_in_data_archive_record, .uint 6 2),
    (.bit_control, .uint 8 1),
    (.in_data_archive, .flag 8 0),
    (.in_daily_archive, .flag 8 1),
    (.in_monthly_archive, .flag 8 2),
    (.is_metrological_quantity, .flag 8 4),
    (.name, .text 9 23),
    (.number_of_conversion_coefficient, .uint 32 1),
    (.address_in_daily_archive_record, .uint 33 2),
    (.address_in_monthly_archive_record, .uint 35 2),
    (.decimals, .optional (.uint 37 1))]

/-- `CompressibilityZBase`. -/
def compressibilityZBaseLayout : Layout where
  size := 37
  tail := 1
  strict := false
  fields := [
    (.number, .uint 0 2),
    (.id, .uint 2 2),
    (.address_in_actual_values, .uint 4 2),
    (.address_in_data_archive_record, .uint 6 2),
    (.bit_control, .uint 8 1),
    (.in_data_archive, .flag 8 0),
    (.in_daily_archive, .flag 8 1),
    (.in_monthly_archive, .flag 8 2),
    (.is_metrological_quantity, .flag 8 4),
    (.name, .text 9 23),
    (.number_of_conversion_coefficient, .uint 32 1),
    (.address_in_daily_archive_record, .uint 33 2),
    (.address_in_monthly_archive_record, .uint 35 2),
    (.decimals, .optional (.uint 37 1))]

/-- `Energy`. -/
def energyLayout : Layout where
  size := 49
  tail := 1
  strict := true
  fields := [
    (.number, .uint 0 2),
    (.id, .uint 2 2),
    (.address_in_actual_values, .uint 4 2),
    (.address_in_data_archive_record, .uint 6 2),
    (.bit_control, .uint 8 1),
    (.in_data_archive, .flag 8 0),
    (.in_daily_archive, .flag 8 1),
    (.in_monthly_archive, .flag 8 2),
    (.in_factory_archive, .flag 8 3),
    (.is_metrological_quantity, .flag 8 4),
    (.name, .text 9 23),
    (.unit, .text 32 8),
    (.number_of_standard_counter, .uint 40 1),
    (.number_of_calorific_value, .uint 41 1),
    (.number_of_conversion, .uint 42 1),
    (.address_in_daily_archive_record, .uint 43 2),
    (.address_in_monthly_archive_record, .uint 45 2),
    (.address_in_billing_archive_record, .uint 47 2),
    (.decimals, .optional (.uint 49 1))]

/-- `ErrorEnergy`. -/
def errorEnergyLayout : Layout where
  size := 49
  tail := 1
  strict := true
  fields := [
    (.number, .uint 0 2),
    (.id, .uint 2 2),
    (.address_in_actual_values, .uint 4 2),
    (.address_in_data_archive_record, .uint 6 2),
    (.bit_control, .uint 8 1),
    (.in_data_archive, .flag 8 0),
    (.in_daily_archive, .flag 8 1),
    (.in_monthly_archive, .flag 8 2),
    (.in_factory_archive, .flag 8 3),
    (.is_metrological_quantity, .flag 8 4),
    (.name, .text 9 23),
    (.unit, .text 32 8),
    (.number_of_standard_counter, .uint 40 1),
    (.number_of_calorific_value, .uint 41 1),
    (.number_of_conversion, .uint 42 1),
    (.address_in_daily_archive_record, .uint 43 2),
    (.address_in_monthly_archive_record, .uint 45 2),
    (.address_in_billing_archive_record, .uint 47 2),
    (.decimals, .optional (.uint 49 1))]

/-- `TariffCounter`. -/
def tariffCounterLayout : Layout where
  size := 56
  tail := 1
  strict := true
  fields := [
    (.number, .uint 0 2),
    (.id, .uint 2 2),
    (.address_in_actual_values, .uint 4 2),
    (.address_in_data_archive_record, .uint 6 2),
    (.bit_control, .uint 8 1),
    (.in_data_archive, .flag 8 0),
    (.in_daily_archive, .flag 8 1),
    (.in_monthly_archive, .flag 8 2),
    (.in_factory_archive, .flag 8 3),
    (.is_metrological_quantity, .flag 8 4),
    (.name, .text 9 23),
    (.unit, .text 32 8),
    (.digit, .float64 40),
    (.number_of_primary_counter, .uint 48 1),
    (.tariff, .uint 49 1),
    (.address_in_daily_archive_record, .uint 50 2),
    (.address_in_monthly_archive_record, .uint 52 2),
    (.address_in_billing_archive_record, .uint 54 2),
    (.decimals, .optional (.uint 56 1))]

/-- `DoubleTariffCounter`. -/
def doubleTariffCounterLayout : Layout where
  size := 56
  tail := 1
  strict := true
  fields := [
    (.number, .uint 0 2),
    (.id, .uint 2 2),
    (.address_in_actual_values, .uint 4 2),
    (.address_in_data_archive_record, .uint 6 2),
    (.bit_control, .uint 8 1),
    (.in_data_archive, .flag 8 0),
    (.in_daily_archive, .flag 8 1),
    (.in_monthly_archive, .flag 8 2),
    (.in_factory_archive, .flag 8 3),
    (.is_metrological_quantity, .flag 8 4),
    (.name, .text 9 23),
    (.unit, .text 32 8),
    (.digit, .float64 40),
    (.number_of_primary_counter, .uint 48 1),
    (.tariff, .uint 49 1),
    (.address_in_daily_archive_record, .uint 50 2),
    (.address_in_monthly_archive_record, .uint 52 2),
    (.address_in_billing_archive_record, .uint 54 2),
    (.decimals, .optional (.uint 56 1))]

/-- `BaseTariffCounter`. -/
def baseTariffCounterLayout : Layout where
  size := 48
  tail := 1
  strict := true
  fields := [
    (.number, .uint 0 2),
    (.id, .uint 2 2),
    (.address_in_actual_values, .uint 4 2),
    (.address_in_data_archive_record, .uint 6 2),
    (.bit_control, .uint 8 1),
    (.in_data_archive, .flag 8 0),
    (.in_daily_archive, .flag 8 1),
    (.in_monthly_archive, .flag 8 2),
    (.in_factory_archive, .flag 8 3),
    (.is_metrological_quantity, .flag 8 4),
    (.name, .text 9 23),
    (.unit, .text 32 8),
    (.number_of_base_counter, .uint 40 1),
    (.tariff, .uint 41 1),
    (.address_in_daily_archive_record, .uint 42 2),
    (.address_in_monthly_archive_record, .uint 44 2),
    (.address_in_billing_archive_record, .uint 46 2),
    (.decimals, .optional (.uint 48 1))]

/-- `DifferenceCounter`. -/
def differenceCounterLayout : Layout where
  size := 55
  tail := 1
  strict := true
  fields := [
    (.number, .uint 0 2),
    (.id, .uint 2 2),
    (.address_in_actual_values, .uint 4 2),
    (.address_in_data_archive_record, .uint 6 2),
    (.bit_control, .uint 8 1),
    (.in_data_archive, .flag 8 0),
    (.in_daily_archive, .flag 8 1),
    (.in_monthly_archive, .flag 8 2),
    (.is_double, .flag 8 3),
    (.is_metrological_quantity, .flag 8 4),
    (.name, .text 9 23),
    (.unit, .text 32 8),
    (.digit, .float64 40),
    (.number_of_primary_counter, .uint 48 1),
    (.address_in_daily_archive_record, .uint 49 2),
    (.address_in_monthly_archive_record, .uint 51 2),
    (.address_in_billing_archive_record, .uint 53 2),
    (.decimals, .optional (.uint 55 1))]

/-- `Timer`. -/
def timerLayout : Layout where
  size := 36
  tail := 0
  strict := true
  fields := [
    (.number, .uint 0 2),
    (.id, .uint 2 2),
    (.address_in_actual_values, .uint 4 2),
    (.address_in_data_archive_record, .uint 6 2),
    (.bit_control, .uint 8 1),
    (.in_data_archive, .flag 8 0),
    (.in_daily_archive, .flag 8 1),
    (.in_monthly_archive, .flag 8 2),
    (.is_metrological_quantity, .flag 8 4),
    (.name, .text 9 23),
    (.address_in_daily_archive_record, .uint 32 2),
    (.address_in_monthly_archive_record, .uint 34 2)]

/-- `DeviceError`; its constructor also needs `error_bit_order_in_actual_values`, `error_bit_order_in_binary_archive_record`, `error_bit_order_in_data_archive_record`, which the body does not contain. -/
def deviceErrorLayout : Layout where
  size := 34
  tail := 27
  strict := true
  fields := [
    (.number, .uint 0 2),
    (.id, .uint 2 2),
    (.bit_order_in_actual_values, .uint 4 2),
    (.bit_order_in_data_archive_record, .uint 6 2),
    (.bit_order_in_binary_archive_record, .uint 8 2),
    (.bit_control, .uint 10 1),
    (.in_binary_archive, .flag 10 0),
    (.in_data_archive, .flag 10 1),
    (.name, .text 11 23),
    (.action_during_change, .optional (.uint 34 1)),
    (.text_log_0, .optional (.text 35 13)),
    (.text_log_1, .optional (.text 48 13))]

/-- `SumOfAlarms`; its constructor also needs `error_bit_order_in_actual_values`, `error_bit_order_in_binary_archive_record`, `error_bit_order_in_data_archive_record`, which the body does not contain. -/
def sumOfAlarmsLayout : Layout where
  size := 34
  tail := 27
  strict := true
  fields := [
    (.number, .uint 0 2),
    (.id, .uint 2 2),
    (.bit_order_in_actual_values, .uint 4 2),
    (.bit_order_in_data_archive_record, .uint 6 2),
    (.bit_order_in_binary_archive_record, .uint 8 2),
    (.bit_control, .uint 10 1),
    (.in_binary_archive, .flag 10 0),
    (.in_data_archive, .flag 10 1),
    (.name, .text 11 23),
    (.action_during_change, .optional (.uint 34 1)),
    (.text_log_0, .optional (.text 35 13)),
    (.text_log_1, .optional (.text 48 13))]

/-- `AnalogStatistics`. -/
def analogStatisticsLayout : Layout where
  size := 54
  tail := 1
  strict := false
  fields := [
    (.number, .uint 0 2),
    (.id, .uint 2 2),
    (.address_in_actual_values, .uint 4 2),
    (.address_in_data_archive_record, .uint 6 2),
    (.bit_control, .uint 8 1),
    (.in_data_archive, .flag 8 0),
    (.in_daily_archive, .flag 8 1),
    (.in_monthly_archive, .flag 8 2),
    (.is_metrological_quantity, .flag 8 4),
    (.name, .text 9 23),
    (.unit, .text 32 8),
    (.digit, .float32Rounded 40 7),
    (.offset, .float32 44),
    (.number_of_primary_quantity, .uint 48 1),
    (.statistics_type, .uint 49 1),
    (.address_in_daily_archive_record, .uint 50 2),
    (.address_in_monthly_archive_record, .uint 52 2),
    (.decimals, .optional (.uint 54 1))]

/-- `Statistics`. -/
def statisticsLayout : Layout where
  size := 54
  tail := 1
  strict := false
  fields := [
    (.number, .uint 0 2),
    (.id, .uint 2 2),
    (.address_in_actual_values, .uint 4 2),
    (.address_in_data_archive_record, .uint 6 2),
    (.bit_control, .uint 8 1),
    (.in_data_archive, .flag 8 0),
    (.in_daily_archive, .flag 8 1),
    (.in_monthly_archive, .flag 8 2),
    (.is_metrological_quantity, .flag 8 4),
    (.name, .text 9 23),
    (.unit, .text 32 8),
    (.digit, .float32Rounded 40 7),
    (.offset, .float32 44),
    (.number_of_primary_quantity, .uint 48 1),
    (.statistics_type, .uint 49 1),
    (.address_in_daily_archive_record, .uint 50 2),
    (.address_in_monthly_archive_record, .uint 52 2),
    (.decimals, .optional (.uint 54 1))]

/-- `AnalogTimeStatistics`. -/
def analogTimeStatisticsLayout : Layout where
  size := 54
  tail := 1
  strict := false
  fields := [
    (.number, .uint 0 2),
    (.id, .uint 2 2),
    (.address_in_actual_values, .uint 4 2),
    (.address_in_data_archive_record, .uint 6 2),
    (.bit_control, .uint 8 1),
    (.in_data_archive, .flag 8 0),
    (.in_daily_archive, .flag 8 1),
    (.in_monthly_archive, .flag 8 2),
    (.is_metrological_quantity, .flag 8 4),
    (.name, .text 9 23),
    (.unit, .text 32 8),
    (.digit, .float32Rounded 40 7),
    (.offset, .float32 44),
    (.number_of_primary_quantity, .uint 48 1),
    (.statistics_type, .uint 49 1),
    (.address_in_daily_archive_record, .uint 50 2),
    (.address_in_monthly_archive_record, .uint 52 2),
    (.decimals, .optional (.uint 54 1))]

/-- `TimeStatistics`. -/
def timeStatisticsLayout : Layout where
  size := 54
  tail := 1
  strict := false
  fields := [
    (.number, .uint 0 2),
    (.id, .uint 2 2),
    (.address_in_actual_values, .uint 4 2),
    (.address_in_data_archive_record, .uint 6 2),
    (.bit_control, .uint 8 1),
    (.in_data_archive, .flag 8 0),
    (.in_daily_archive, .flag 8 1),
    (.in_monthly_archive, .flag 8 2),
    (.is_metrological_quantity, .flag 8 4),
    (.name, .text 9 23),
    (.unit, .text 32 8),
    (.digit, .float32Rounded 40 7),
    (.offset, .float32 44),
    (.number_of_primary_quantity, .uint 48 1),
    (.statistics_type, .uint 49 1),
    (.address_in_daily_archive_record, .uint 50 2),
    (.address_in_monthly_archive_record, .uint 52 2),
    (.decimals, .optional (.uint 54 1))]

/-- `CounterStatistics`. -/
def counterStatisticsLayout : Layout where
  size := 55
  tail := 0
  strict := true
  fields := [
    (.number, .uint 0 2),
    (.id, .uint 2 2),
    (.address_in_actual_values, .uint 4 2),
    (.address_in_data_archive_record, .uint 6 2),
    (.bit_control, .uint 8 1),
    (.in_data_archive, .flag 8 0),
    (.in_daily_archive, .flag 8 1),
    (.in_monthly_archive, .flag 8 2),
    (.is_metrological_quantity, .flag 8 4),
    (.name, .text 9 23),
    (.unit, .text 32 8),
    (.digit, .float64 40),
    (.type_of_primary_quantity, .uint 48 1),
    (.number_of_primary_quantity, .uint 49 1),
    (.statistics_type, .uint 50 1),
    (.address_in_daily_archive_record, .uint 51 2),
    (.address_in_monthly_archive_record, .uint 53 2)]

/-- `StandardCounterStatistics`. -/
def standardCounterStatisticsLayout : Layout where
  size := 55
  tail := 0
  strict := true
  fields := [
    (.number, .uint 0 2),
    (.id, .uint 2 2),
    (.address_in_actual_values, .uint 4 2),
    (.address_in_data_archive_record, .uint 6 2),
    (.bit_control, .uint 8 1),
    (.in_data_archive, .flag 8 0),
    (.in_daily_archive, .flag 8 1),
    (.in_monthly_archive, .flag 8 2),
    (.is_metrological_quantity, .flag 8 4),
    (.name, .text 9 23),
    (.unit, .text 32 8),
    (.digit, .float64 40),
    (.type_of_primary_quantity, .uint 48 1),
    (.number_of_primary_quantity, .uint 49 1),
    (.statistics_type, .uint 50 1),
    (.address_in_daily_archive_record, .uint 51 2),
    (.address_in_monthly_archive_record, .uint 53 2)]

/-- `Modem`. -/
def modemLayout : Layout where
  size := 330
  tail := 0
  strict := true
  fields := [
    (.number, .uint 0 1),
    (.bit_control_0, .uint 1 1),
    (.title, .text 2 7),
    (.modem_type, .uint 9 1),
    (.initialization, .text 10 32),
    (.call_to_dispatching, .text 42 32),
    (.modem_hang_up, .text 74 8),
    (.special_initialization, .text 82 80),
    (.ip_address_for_registration_and_diagnostics, .ip 162),
    (.ip_address_for_calling_to_dispatching, .ip 166),
    (.registration_send_period, .uint 170 1),
    (.authentication_mode, .uint 171 1),
    (.port_for_registration, .uint 172 2),
    (.port_for_calling_to_dispatching, .uint 174 2),
    (.sms_call, .text 176 32),
    (.gprs_user_name, .text 208 49),
    (.gprs_password, .hex 257 33),
    (.ip_address_for_ping, .ip 290),
    (.ping_period, .uint 294 2),
    (.transition_into_command_mode, .text 296 8),
    (.pin, .hex 304 9),
    (.owner_sim_number, .text 313 17)]

/-- `CorrectionCounter`. -/
def correctionCounterLayout : Layout where
  size := 55
  tail := 1
  strict := false
  fields := [
    (.number, .uint 0 2),
    (.id, .uint 2 2),
    (.address_in_actual_values, .uint 4 2),
    (.address_in_data_archive_record, .uint 6 2),
    (.bit_control, .uint 8 1),
    (.in_data_archive, .flag 8 0),
    (.in_daily_archive, .flag 8 1),
    (.in_monthly_archive, .flag 8 2),
    (.in_factory_archive, .flag 8 3),
    (.is_metrological_quantity, .flag 8 4),
    (.name, .text 9 23),
    (.unit, .text 32 8),
    (.digit, .float64 40),
    (.number_of_primary_counter, .uint 48 1),
    (.address_in_daily_archive_record, .uint 49 2),
    (.address_in_monthly_archive_record, .uint 51 2),
    (.address_in_billing_archive_record, .uint 53 2),
    (.decimals, .optional (.uint 55 1))]

/-- The layout of each class with a fixed layout (`TimeWindow` has a variable number of rows and
`DifferenceBaseCounter` no decoder). -/
def layoutOf : Cls → Option Layout
  | .SystemParameters => some systemParametersLayout
  | .AnalogQuantity => some analogQuantityLayout
  | .Binary => some binaryLayout
  | .Counter => some counterLayout
  | .StandardCounter => some standardCounterLayout
  | .FlowRate => some flowRateLayout
  | .StandardFlowRate => some standardFlowRateLayout
  | .ConversionCoefficient => some conversionCoefficientLayout
  | .ErrorCounter => some errorCounterLayout
  | .ErrorStandardCounter => some errorStandardCounterLayout
  | .Compressibility => some compressibilityLayout
  | .DoubleCounter => some doubleCounterLayout
  | .DoubleErrorCounter => some doubleErrorCounterLayout
  | .Diagnostics => some diagnosticsLayout
  | .SetPoint => some setPointLayout
  | .CompressibilityZ => some compressibilityZLayout
  | .CompressibilityZBase => some compressibilityZBaseLayout
  | .Energy => some energyLayout
  | .ErrorEnergy => some errorEnergyLayout
  | .TariffCounter => some tariffCounterLayout
  | .DoubleTariffCounter => some doubleTariffCounterLayout
  | .BaseTariffCounter => some baseTariffCounterLayout
  | .DifferenceCounter => some differenceCounterLayout
  | .Timer => some timerLayout
  | .DeviceError => some deviceErrorLayout
  | .SumOfAlarms => some sumOfAlarmsLayout
  | .AnalogStatistics => some analogStatisticsLayout
  | .Statistics => some statisticsLayout
  | .AnalogTimeStatistics => some analogTimeStatisticsLayout
  | .TimeStatistics => some timeStatisticsLayout
  | .CounterStatistics => some counterStatisticsLayout
  | .StandardCounterStatistics => some standardCounterStatisticsLayout
  | .Modem => some modemLayout
  | .CorrectionCounter => some correctionCounterLayout
  | _ => none

/-- `TimeWindow` with `n` rows (byte 34 of the body). -/
def timeWindowLayout (n : Nat) : Layout where
  size := 35 + 10 * n
  tail := 27
  strict := true
  fields := [
    (.number, .uint 0 2),
    (.id, .uint 2 2),
    (.bit_order_in_actual_values, .uint 4 2),
    (.bit_order_in_data_archive_record, .uint 6 2),
    (.bit_order_in_binary_archive_record, .uint 8 2),
    (.bit_control, .uint 10 1),
    (.in_binary_archive, .flag 10 0),
    (.in_data_archive, .flag 10 1),
    (.name, .text 11 23),
    (.rows_in_window, .uint 34 1),
    (.rows, .hexRows 35 n 10),
    (.action_during_change, .optional (.uint (35 + 10 * n) 1)),
    (.text_log_0, .optional (.text (36 + 10 * n) 13)),
    (.text_log_1, .optional (.text (49 + 10 * n) 13))]

/-- The layout that applies to a body `d` of the class. -/
def layout (k : Cls) (d : List UInt8) : Option Layout :=
  match k with
  | .TimeWindow => some (timeWindowLayout (d.getD 34 0).toNat)
  | _ => layoutOf k

/-- The object types a device can send and the class of the object they stand for. -/
def classFor : ObjType → Cls
  | .SYSTEM_PARAMETER => .SystemParameters
  | .ANALOG_MEASURAND => .AnalogQuantity
  | .BINARY => .Binary
  | .COUNTER => .Counter
  | .STANDARD_COUNTER => .StandardCounter
  | .FLOW_RATE => .FlowRate
  | .STANDARD_FLOW_RATE => .StandardFlowRate
  | .CONVERSION_COEFFICIENT => .ConversionCoefficient
  | .ERROR_COUNTER => .ErrorCounter
  | .ERROR_STANDARD_COUNTER => .ErrorStandardCounter
  | .COMPRESSIBILITY => .Compressibility
  | .TIME_WINDOW => .TimeWindow
  | .DOUBLE_COUNTER => .DoubleCounter
  | .DOUBLE_ERROR_COUNTER => .DoubleErrorCounter
  | .DIAGNOSTICS => .Diagnostics
  | .SET_POINT => .SetPoint
  | .COMPRESSIBILITY_Z => .CompressibilityZ
  | .COMPRESSIBILITY_Z_BASE => .CompressibilityZBase
  | .ENERGY => .Energy
  | .ERROR_ENERGY => .ErrorEnergy
  | .TARIFF_COUNTER => .TariffCounter
  | .DOUBLE_TARIFF_COUNTER => .DoubleTariffCounter
  | .BASE_TARIFF_COUNTER => .BaseTariffCounter
  | .DIFFERENCE_COUNTER => .DifferenceCounter
  | .DIFFERENCE_BASE_COUNTER => .DifferenceBaseCounter
  | .TIMER => .Timer
  | .DEVICE_ERROR => .DeviceError
  | .SUM_OF_ALARMS => .SumOfAlarms
  | .ANALOG_STATISTICS => .AnalogStatistics
  | .STATISTICS => .Statistics
  | .ANALOG_TIME_STATISTICS => .AnalogTimeStatistics
  | .TIME_STATISTICS => .TimeStatistics
  | .COUNTER_STATISTICS => .CounterStatistics
  | .STANDARD_COUNTER_STATISTICS => .StandardCounterStatistics
  | .MODEM => .Modem
  | .CORRECTION_COUNTER => .CorrectionCounter

end Spec
