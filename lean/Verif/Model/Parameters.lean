import Verif.Model.ParamLang
/-!
The parameter classes of /repo/elgas/parameters/*.py as data for the interpreter of
`Verif.Model.ParamLang`.  Written by tools/gen_parameters.py, which reads the `from_bytes` bodies,
attribute lists and keyword arguments statement by statement; committed as an ordinary module.
-/
namespace Elgas

/-- `SystemParameters` elgas/parameters/system_parameters.py:20-230; `from_bytes` system_parameters.py:87-230. -/
def systemParameters : ParamClass where
  cls := .SystemParameters
  objectType := .SYSTEM_PARAMETER
  fields := [.device_type, .serial_number, .firmware_version, .service_version, .certification_variant, .station_id, .password_for_full_access_active, .password_for_reading_is_on, .metrological_switch, .user_switch, .switch_function, .parameter_crc, .measuring_period, .archive_period, .base_pressure, .base_temperature, .compressibility_formula, .gas_composition, .data_archive_record_length, .binary_archive_record_length, .daily_archive_record_length, .monthly_archive_record_length, .instantaneous_values_error_bit_order, .binary_archive_record_error_bit_order, .data_archive_record_error_bit_order, .optical_port_speed, .optical_port_protocol, .optical_port_bit_control, .communication_port_0_speed, .communication_port_0_protocol, .communication_port_0_bit_control, .communication_port_1_speed, .communication_port_1_protocol, .communication_port_1_bit_control, .communication_port_2_speed, .communication_port_2_protocol, .communication_port_2_bit_control, .gas_day_hour, .fixed_barometric_pressure, .altitude, .status_archive_record_length, .pressure_unit_type, .pressure_unit_text, .temperature_unit_type, .temperature_unit_text, .altitude_unit_type, .altitude_unit_text, .gross_calorific_value_type, .gross_calorific_value_text, .dst_region, .gmt_hour_shift, .billing_archive_record_length, .conditions_for_combustion_heat, .device_variant, .bit_control, .places_for_corrected_volume_counters, .device_features_bits, .device_features, .version_metrological_part, .metrological_crc, .metrological_crc_32, .application_crc_32]
  body := some [
    .simple (.popByte .device_type),
    .simple (.popInt .serial_number 4),
    .simple (.popText .firmware_version 5),
    .simple (.popByte .service_version),
    .simple (.popByte .certification_variant),
    .simple (.popText .station_id 17),
    .simple (.popByte .data_access),
    .simple (.flag .password_for_full_access_active .data_access 0b00000001),
    .simple (.flag .password_for_reading_is_on .data_access 0b00000010),
    .simple (.flag .metrological_switch .data_access 0b00000100),
    .simple (.flag .user_switch .data_access 0b00001000),
    .simple (.bits .switch_function .data_access 0b00110000 4),
    .simple (.popInt .parameter_crc 2),
    .simple (.popByte .measuring_period),
    .simple (.popInt .archiving_period 2),
    .simple (.popF32 .base_pressure),
    .simple (.popF32 .base_temperature),
    .simple (.popByte .compressibility_formula),
    .simple (.popGas .gas_composition (23 * 4)),
    .simple (.popInt .data_archive_record_length 2),
    .simple (.popInt .binary_archive_record_length 2),
    .simple (.popInt .daily_archive_record_length 2),
    .simple (.popInt .monthly_archive_record_length 2),
    .simple (.popInt .instantaneous_values_error_bit_order 2),
    .simple (.popInt .binary_archive_record_error_bit_order 2),
    .simple (.popInt .data_archive_record_error_bit_order 2),
    .simple (.popByte .optical_port_speed),
    .simple (.popByte .optical_port_protocol),
    .simple (.popByte .optical_port_bit_control),
    .simple (.popByte .communication_port_0_speed),
    .simple (.popByte .communication_port_0_protocol),
    .simple (.popByte .communication_port_0_bit_control),
    .simple (.popByte .communication_port_1_speed),
    .simple (.popByte .communication_port_1_protocol),
    .simple (.popByte .communication_port_1_bit_control),
    .simple (.popByte .communication_port_2_speed),
    .simple (.popByte .communication_port_2_protocol),
    .simple (.popByte .communication_port_2_bit_control),
    .simple (.popByte .gas_hour),
    .simple (.popF32 .fixed_barometric_pressure),
    .simple (.popF32 .altitude),
    .simple (.skip 17),
    .simple (.popInt .status_archive_record_length 2),
    .simple (.popByte .pressure_unit_type),
    .simple (.popText .pressure_unit_text 8),
    .simple (.popByte .temperature_unit_type),
    .simple (.popText .temperature_unit_text 8),
    .simple (.popByte .altitude_unit_type),
    .simple (.popText .altitude_unit_text 8),
    .simple (.popByte .gross_calorific_value_type),
    .simple (.popText .gross_calorific_value_text 8),
    .simple (.popByte .dst_region),
    .simple (.popByte .gmt_hour_shift),
    .simple (.popInt .billing_archive_record_length 2),
    .simple (.popByte .conditions_for_combustion_heat),
    .simple (.popByte .device_variant),
    .simple (.popByte .underscore),
    .simple (.popByte .bit_control),
    .simple (.popByte .corrected_volume_counters_amount),
    .simple (.popByte .device_features_bits),
    .simple (.popHex .device_features 16),
    .simple (.popText .version_metrological_part 5),
    .simple (.popInt .metrological_crc 2),
    .simple (.popInt .metrological_crc_32 4),
    .simple (.popInt .application_crc_32 4),
    .assertEmpty]
  kwargs := [(.device_type, .device_type), (.serial_number, .serial_number), (.firmware_version, .firmware_version), (.service_version, .service_version), (.certification_variant, .certification_variant), (.station_id, .station_id), (.password_for_full_access_active, .password_for_full_access_active), (.password_for_reading_is_on, .password_for_reading_is_on), (.metrological_switch, .metrological_switch), (.user_switch, .user_switch), (.switch_function, .switch_function), (.parameter_crc, .parameter_crc), (.measuring_period, .measuring_period), (.archive_period, .archiving_period), (.base_pressure, .base_pressure), (.base_temperature, .base_temperature), (.compressibility_formula, .compressibility_formula), (.gas_composition, .gas_composition), (.data_archive_record_length, .data_archive_record_length), (.binary_archive_record_length, .binary_archive_record_length), (.daily_archive_record_length, .daily_archive_record_length), (.monthly_archive_record_length, .monthly_archive_record_length), (.instantaneous_values_error_bit_order, .instantaneous_values_error_bit_order), (.binary_archive_record_error_bit_order, .binary_archive_record_error_bit_order), (.data_archive_record_error_bit_order, .data_archive_record_error_bit_order), (.optical_port_speed, .optical_port_speed), (.optical_port_protocol, .optical_port_protocol), (.optical_port_bit_control, .optical_port_bit_control), (.communication_port_0_speed, .communication_port_0_speed), (.communication_port_0_protocol, .communication_port_0_protocol), (.communication_port_0_bit_control, .communication_port_0_bit_control), (.communication_port_1_speed, .communication_port_1_speed), (.communication_port_1_protocol, .communication_port_1_protocol), (.communication_port_1_bit_control, .communication_port_1_bit_control), (.communication_port_2_speed, .communication_port_2_speed), (.communication_port_2_protocol, .communication_port_2_protocol), (.communication_port_2_bit_control, .communication_port_2_bit_control), (.gas_day_hour, .gas_hour), (.fixed_barometric_pressure, .fixed_barometric_pressure), (.altitude, .altitude), (.status_archive_record_length, .status_archive_record_length), (.pressure_unit_type, .pressure_unit_type), (.pressure_unit_text, .pressure_unit_text), (.temperature_unit_type, .temperature_unit_type), (.temperature_unit_text, .temperature_unit_text), (.altitude_unit_type, .altitude_unit_type), (.altitude_unit_text, .altitude_unit_text), (.gross_calorific_value_type, .gross_calorific_value_type), (.gross_calorific_value_text, .gross_calorific_value_text), (.dst_region, .dst_region), (.gmt_hour_shift, .gmt_hour_shift), (.billing_archive_record_length, .billing_archive_record_length), (.conditions_for_combustion_heat, .conditions_for_combustion_heat), (.device_variant, .device_variant), (.bit_control, .bit_control), (.places_for_corrected_volume_counters, .corrected_volume_counters_amount), (.device_features_bits, .device_features_bits), (.device_features, .device_features), (.version_metrological_part, .version_metrological_part), (.metrological_crc, .metrological_crc), (.metrological_crc_32, .metrological_crc_32), (.application_crc_32, .application_crc_32)]

/-- `AnalogQuantity` elgas/parameters/analog_quantity.py:13-104; `from_bytes` analog_quantity.py:44-104. -/
def analogQuantity : ParamClass where
  cls := .AnalogQuantity
  objectType := .ANALOG_MEASURAND
  fields := [.number, .id, .address_in_actual_values, .address_in_data_archive_record, .bit_control, .in_data_archive, .in_daily_archive, .in_monthly_archive, .is_metrological_quantity, .in_fast_archive_1, .in_fast_archvie_2, .name, .unit, .digit, .offset, .lower_limit_measuring_range, .upper_limit_measuring_range, .serial_number_transducer, .error_bit_order_in_actual_values, .error_bit_order_in_binary_archive, .error_bit_order_in_data_archive, .address_in_daily_archive_record, .address_in_monthly_archive_record, .samples_in_fast_archive, .decimals]
  body := some [
    .simple (.popInt .number 2),
    .simple (.popInt .id 2),
    .simple (.popInt .address_in_actual_values 2),
    .simple (.popInt .address_in_data_archive_record 2),
    .simple (.popByte .bit_control),
    .simple (.flag .in_data_archive .bit_control 0b00000001),
    .simple (.flag .in_daily_archive .bit_control 0b00000010),
    .simple (.flag .in_monthly_archive .bit_control 0b00000100),
    .simple (.flag .is_metrological_quantity .bit_control 0b00010000),
    .simple (.flag .in_fast_archive_1 .bit_control 0b00100000),
    .simple (.flag .in_fast_archvie_2 .bit_control 0b01000000),
    .simple (.popText .name 23),
    .simple (.popText .unit 8),
    .simple (.popF32Round .digit 7),
    .simple (.popF32 .offset),
    .simple (.popF32Round .lower_limit_measuring_range 7),
    .simple (.popF32 .upper_limit_measuring_range),
    .simple (.popInt .serial_number_transducer 4),
    .simple (.popInt .error_bit_order_in_actual_values 2),
    .simple (.popInt .error_bit_order_in_binary_archive 2),
    .simple (.popInt .error_bit_order_in_data_archive 2),
    .simple (.popInt .address_in_daily_archive_record 2),
    .simple (.popInt .address_in_monthly_archive_record 2),
    .simple (.popByte .samples_in_fast_archive),
    .ifData
      [.popByte .decimals]
      [.setNone .decimals]]
  kwargs := [(.number, .number), (.id, .id), (.address_in_actual_values, .address_in_actual_values), (.address_in_data_archive_record, .address_in_data_archive_record), (.bit_control, .bit_control), (.in_data_archive, .in_data_archive), (.in_daily_archive, .in_daily_archive), (.in_monthly_archive, .in_monthly_archive), (.is_metrological_quantity, .is_metrological_quantity), (.in_fast_archive_1, .in_fast_archive_1), (.in_fast_archvie_2, .in_fast_archvie_2), (.name, .name), (.unit, .unit), (.digit, .digit), (.offset, .offset), (.lower_limit_measuring_range, .lower_limit_measuring_range), (.upper_limit_measuring_range, .upper_limit_measuring_range), (.serial_number_transducer, .serial_number_transducer), (.error_bit_order_in_actual_values, .error_bit_order_in_actual_values), (.error_bit_order_in_binary_archive, .error_bit_order_in_binary_archive), (.error_bit_order_in_data_archive, .error_bit_order_in_data_archive), (.address_in_daily_archive_record, .address_in_daily_archive_record), (.address_in_monthly_archive_record, .address_in_monthly_archive_record), (.samples_in_fast_archive, .samples_in_fast_archive), (.decimals, .decimals)]

/-- `Binary` elgas/parameters/binary.py:12-83; `from_bytes` binary.py:34-83. -/
def binary : ParamClass where
  cls := .Binary
  objectType := .BINARY
  fields := [.number, .id, .bit_order_in_actual_values, .bit_order_in_data_archive_record, .bit_order_in_binary_archive_record, .bit_control, .in_binary_archive, .in_data_archive, .active_indicator, .name, .error_bit_order_in_actual_values, .error_bit_order_in_binary_archive_record, .error_bit_order_in_data_archive_record, .action_during_change, .text_log_0, .text_log_1]
  body := some [
    .simple (.popInt .number 2),
    .simple (.popInt .id 2),
    .simple (.popInt .bit_order_in_actual_values 2),
    .simple (.popInt .bit_order_in_data_archive_record 2),
    .simple (.popInt .bit_order_in_binary_archive_record 2),
    .simple (.popByte .bit_control),
    .simple (.flag .in_binary_archive .bit_control 0b00000001),
    .simple (.flag .in_data_archive .bit_control 0b00000010),
    .simple (.flag .active_indicator .bit_control 0b01000000),
    .simple (.popText .name 23),
    .simple (.popInt .error_bit_order_in_actual_values 2),
    .simple (.popInt .error_bit_order_in_binary_archive_record 2),
    .simple (.popInt .error_bit_order_in_data_archive_record 2),
    .ifData
      [.popByte .action_during_change, .popText .text_log_0 13, .popText .text_log_1 13]
      [.setNone .action_during_change, .setNone .text_log_0, .setNone .text_log_1],
    .assertEmpty]
  kwargs := [(.number, .number), (.id, .id), (.bit_order_in_actual_values, .bit_order_in_actual_values), (.bit_order_in_data_archive_record, .bit_order_in_data_archive_record), (.bit_order_in_binary_archive_record, .bit_order_in_binary_archive_record), (.bit_control, .bit_control), (.in_binary_archive, .in_binary_archive), (.in_data_archive, .in_data_archive), (.active_indicator, .active_indicator), (.name, .name), (.error_bit_order_in_actual_values, .error_bit_order_in_actual_values), (.error_bit_order_in_binary_archive_record, .error_bit_order_in_binary_archive_record), (.error_bit_order_in_data_archive_record, .error_bit_order_in_data_archive_record), (.action_during_change, .action_during_change), (.text_log_0, .text_log_0), (.text_log_1, .text_log_1)]

/-- `Counter` elgas/parameters/counter.py:13-98; `from_bytes` counter.py:44-98. -/
def counter : ParamClass where
  cls := .Counter
  objectType := .COUNTER
  fields := [.number, .id, .address_in_actual_values, .address_in_data_archive_record, .bit_control, .in_data_archive, .in_daily_archive, .in_monthly_archive, .in_factory_archive, .is_metrological_quantity, .accept_counting_direction, .name, .unit, .digit, .serial_number_of_gas_meter, .error_bit_order_in_actual_values, .error_bit_order_in_binary_archive, .error_bit_order_in_data_archive, .address_in_daily_archive_record, .address_in_monthly_archive_record, .address_in_billing_archive_record, .serial_number_of_gas_meter_text, .decimals]
  body := some [
    .simple (.popInt .number 2),
    .simple (.popInt .id 2),
    .simple (.popInt .address_in_actual_values 2),
    .simple (.popInt .address_in_data_archive_record 2),
    .simple (.popByte .bit_control),
    .simple (.flag .in_data_archive .bit_control 0b00000001),
    .simple (.flag .in_daily_archive .bit_control 0b00000010),
    .simple (.flag .in_monthly_archive .bit_control 0b00000100),
    .simple (.flag .in_factory_archive .bit_control 0b00001000),
    .simple (.flag .is_metrological_quantity .bit_control 0b00010000),
    .simple (.flag .accept_counting_direction .bit_control 0b01000000),
    .simple (.popText .name 23),
    .simple (.popText .unit 8),
    .simple (.popF64 .digit),
    .simple (.popInt .serial_number_of_gas_meter 4),
    .simple (.popInt .error_bit_order_in_actual_values 2),
    .simple (.popInt .error_bit_order_in_binary_archive 2),
    .simple (.popInt .error_bit_order_in_data_archive 2),
    .simple (.popInt .address_in_daily_archive_record 2),
    .simple (.popInt .address_in_monthly_archive_record 2),
    .simple (.popInt .address_in_billing_archive_record 2),
    .simple (.popText .serial_number_of_gas_meter_text 17),
    .ifData
      [.popByte .decimals]
      [.setNone .decimals]]
  kwargs := [(.number, .number), (.id, .id), (.address_in_actual_values, .address_in_actual_values), (.address_in_data_archive_record, .address_in_data_archive_record), (.bit_control, .bit_control), (.in_data_archive, .in_data_archive), (.in_daily_archive, .in_daily_archive), (.in_monthly_archive, .in_monthly_archive), (.in_factory_archive, .in_factory_archive), (.is_metrological_quantity, .is_metrological_quantity), (.accept_counting_direction, .accept_counting_direction), (.name, .name), (.unit, .unit), (.digit, .digit), (.serial_number_of_gas_meter, .serial_number_of_gas_meter), (.error_bit_order_in_actual_values, .error_bit_order_in_actual_values), (.error_bit_order_in_binary_archive, .error_bit_order_in_binary_archive), (.error_bit_order_in_data_archive, .error_bit_order_in_data_archive), (.address_in_daily_archive_record, .address_in_daily_archive_record), (.address_in_monthly_archive_record, .address_in_monthly_archive_record), (.address_in_billing_archive_record, .address_in_billing_archive_record), (.serial_number_of_gas_meter_text, .serial_number_of_gas_meter_text), (.decimals, .decimals)]

/-- `StandardCounter` elgas/parameters/standard_counter.py:12-82; `from_bytes` standard_counter.py:36-82. -/
def standardCounter : ParamClass where
  cls := .StandardCounter
  objectType := .STANDARD_COUNTER
  fields := [.number, .id, .address_in_actual_values, .address_in_data_archive_record, .bit_control, .in_data_archive, .in_daily_archive, .in_monthly_archive, .in_factory_archive, .is_metrological_quantity, .name, .unit, .number_of_primary_counter, .number_of_conversion, .address_in_daily_archive_record, .address_in_monthly_archive_record, .address_in_billing_archive_record, .decimals]
  body := some [
    .simple (.popInt .number 2),
    .simple (.popInt .id 2),
    .simple (.popInt .address_in_actual_values 2),
    .simple (.popInt .address_in_data_archive_record 2),
    .simple (.popByte .bit_control),
    .simple (.flag .in_data_archive .bit_control 0b00000001),
    .simple (.flag .in_daily_archive .bit_control 0b00000010),
    .simple (.flag .in_monthly_archive .bit_control 0b00000100),
    .simple (.flag .in_factory_archive .bit_control 0b00001000),
    .simple (.flag .is_metrological_quantity .bit_control 0b00010000),
    .simple (.popText .name 23),
    .simple (.popText .unit 8),
    .simple (.popByte .number_of_primary_counter),
    .simple (.popByte .number_of_conversion),
    .simple (.popInt .address_in_daily_archive_record 2),
    .simple (.popInt .address_in_monthly_archive_record 2),
    .simple (.popInt .address_in_billing_archive_record 2),
    .ifData
      [.popByte .decimals]
      [.setNone .decimals],
    .assertEmpty]
  kwargs := [(.number, .number), (.id, .id), (.address_in_actual_values, .address_in_actual_values), (.address_in_data_archive_record, .address_in_data_archive_record), (.bit_control, .bit_control), (.in_data_archive, .in_data_archive), (.in_daily_archive, .in_daily_archive), (.in_monthly_archive, .in_monthly_archive), (.in_factory_archive, .in_factory_archive), (.is_metrological_quantity, .is_metrological_quantity), (.name, .name), (.unit, .unit), (.number_of_primary_counter, .number_of_primary_counter), (.number_of_conversion, .number_of_conversion), (.address_in_daily_archive_record, .address_in_daily_archive_record), (.address_in_monthly_archive_record, .address_in_monthly_archive_record), (.address_in_billing_archive_record, .address_in_billing_archive_record), (.decimals, .decimals)]

/-- `FlowRate` elgas/parameters/flow_rate.py:12-79; `from_bytes` flow_rate.py:36-79. -/
def flowRate : ParamClass where
  cls := .FlowRate
  objectType := .FLOW_RATE
  fields := [.number, .id, .address_in_actual_values, .address_in_data_archive_record, .bit_control, .in_data_archive, .in_daily_archive, .in_monthly_archive, .is_metrological_quantity, .name, .unit, .error_bit_order_in_actual_values, .error_bit_order_in_binary_archive, .error_bit_order_in_data_archive, .address_in_daily_archive_record, .address_in_monthly_archive_record, .decimals]
  body := some [
    .simple (.popInt .number 2),
    .simple (.popInt .id 2),
    .simple (.popInt .address_in_actual_values 2),
    .simple (.popInt .address_in_data_archive_record 2),
    .simple (.popByte .bit_control),
    .simple (.flag .in_data_archive .bit_control 0b00000001),
    .simple (.flag .in_daily_archive .bit_control 0b00000010),
    .simple (.flag .in_monthly_archive .bit_control 0b00000100),
    .simple (.flag .is_metrological_quantity .bit_control 0b00010000),
    .simple (.popText .name 23),
    .simple (.popText .unit 8),
    .simple (.popInt .error_bit_order_in_actual_values 2),
    .simple (.popInt .error_bit_order_in_binary_archive 2),
    .simple (.popInt .error_bit_order_in_data_archive 2),
    .simple (.popInt .address_in_daily_archive_record 2),
    .simple (.popInt .address_in_monthly_archive_record 2),
    .ifData
      [.popByte .decimals]
      [.setNone .decimals]]
  kwargs := [(.number, .number), (.id, .id), (.address_in_actual_values, .address_in_actual_values), (.address_in_data_archive_record, .address_in_data_archive_record), (.bit_control, .bit_control), (.in_data_archive, .in_data_archive), (.in_daily_archive, .in_daily_archive), (.in_monthly_archive, .in_monthly_archive), (.is_metrological_quantity, .is_metrological_quantity), (.name, .name), (.unit, .unit), (.error_bit_order_in_actual_values, .error_bit_order_in_actual_values), (.error_bit_order_in_binary_archive, .error_bit_order_in_binary_archive), (.error_bit_order_in_data_archive, .error_bit_order_in_data_archive), (.address_in_daily_archive_record, .address_in_daily_archive_record), (.address_in_monthly_archive_record, .address_in_monthly_archive_record), (.decimals, .decimals)]

/-- `StandardFlowRate` elgas/parameters/flow_rate.py:109-172; `from_bytes` flow_rate.py:131-172. -/
def standardFlowRate : ParamClass where
  cls := .StandardFlowRate
  objectType := .STANDARD_FLOW_RATE
  fields := [.number, .id, .address_in_actual_values, .address_in_data_archive_record, .bit_control, .in_data_archive, .in_daily_archive, .in_monthly_archive, .is_metrological_quantity, .name, .unit, .number_of_primary_flow_rate, .number_of_conversion, .address_in_daily_archive_record, .address_in_monthly_archive_record, .decimals]
  body := some [
    .simple (.popInt .number 2),
    .simple (.popInt .id 2),
    .simple (.popInt .address_in_actual_values 2),
    .simple (.popInt .address_in_data_archive_record 2),
    .simple (.popByte .bit_control),
    .simple (.flag .in_data_archive .bit_control 0b00000001),
    .simple (.flag .in_daily_archive .bit_control 0b00000010),
    .simple (.flag .in_monthly_archive .bit_control 0b00000100),
    .simple (.flag .is_metrological_quantity .bit_control 0b00010000),
    .simple (.popText .name 23),
    .simple (.popText .unit 8),
    .simple (.popByte .number_of_primary_flow_rate),
    .simple (.popByte .number_of_conversion),
    .simple (.popInt .address_in_daily_archive_record 2),
    .simple (.popInt .address_in_monthly_archive_record 2),
    .ifData
      [.popByte .decimals]
      [.setNone .decimals]]
  kwargs := [(.number, .number), (.id, .id), (.address_in_actual_values, .address_in_actual_values), (.address_in_data_archive_record, .address_in_data_archive_record), (.bit_control, .bit_control), (.in_data_archive, .in_data_archive), (.in_daily_archive, .in_daily_archive), (.in_monthly_archive, .in_monthly_archive), (.is_metrological_quantity, .is_metrological_quantity), (.name, .name), (.unit, .unit), (.number_of_primary_flow_rate, .number_of_primary_flow_rate), (.number_of_conversion, .number_of_conversion), (.address_in_daily_archive_record, .address_in_daily_archive_record), (.address_in_monthly_archive_record, .address_in_monthly_archive_record), (.decimals, .decimals)]

/-- `ConversionCoefficient` elgas/parameters/conversion_coefficient.py:13-87; `from_bytes` conversion_coefficient.py:41-87. -/
def conversionCoefficient : ParamClass where
  cls := .ConversionCoefficient
  objectType := .CONVERSION_COEFFICIENT
  fields := [.number, .id, .address_in_actual_values, .address_in_data_archive_record, .bit_control, .in_data_archive, .in_daily_archive, .in_monthly_archive, .is_metrological_quantity, .name, .number_of_analog_pressure, .number_of_analog_temperature, .compressibility_calculation_method, .default_value_pressure, .default_value_temperature, .alternate_value_of_compressibility, .address_in_daily_archive_record, .address_in_monthly_archive_record, .decimals]
  body := some [
    .simple (.popInt .number 2),
    .simple (.popInt .id 2),
    .simple (.popInt .address_in_actual_values 2),
    .simple (.popInt .address_in_data_archive_record 2),
    .simple (.popByte .bit_control),
    .simple (.flag .in_data_archive .bit_control 0b00000001),
    .simple (.flag .in_daily_archive .bit_control 0b00000010),
    .simple (.flag .in_monthly_archive .bit_control 0b00000100),
    .simple (.flag .is_metrological_quantity .bit_control 0b00010000),
    .simple (.popText .name 23),
    .simple (.popByte .number_of_analog_pressure),
    .simple (.popByte .number_of_analog_temperature),
    .simple (.popByte .compressibility_calculation_method),
    .simple (.popF32 .default_value_pressure),
    .simple (.popF32 .default_value_temperature),
    .simple (.popF32 .alternate_value_of_compressibility),
    .simple (.popInt .address_in_daily_archive_record 2),
    .simple (.popInt .address_in_monthly_archive_record 2),
    .ifData
      [.popByte .decimals]
      [.setNone .decimals]]
  kwargs := [(.number, .number), (.id, .id), (.address_in_actual_values, .address_in_actual_values), (.address_in_data_archive_record, .address_in_data_archive_record), (.bit_control, .bit_control), (.in_data_archive, .in_data_archive), (.in_daily_archive, .in_daily_archive), (.in_monthly_archive, .in_monthly_archive), (.is_metrological_quantity, .is_metrological_quantity), (.name, .name), (.number_of_analog_pressure, .number_of_analog_pressure), (.number_of_analog_temperature, .number_of_analog_temperature), (.compressibility_calculation_method, .compressibility_calculation_method), (.default_value_pressure, .default_value_pressure), (.default_value_temperature, .default_value_temperature), (.alternate_value_of_compressibility, .alternate_value_of_compressibility), (.address_in_daily_archive_record, .address_in_daily_archive_record), (.address_in_monthly_archive_record, .address_in_monthly_archive_record), (.decimals, .decimals)]

/-- `ErrorCounter` elgas/parameters/error_counter.py:13-84; `from_bytes` error_counter.py:39-84. -/
def errorCounter : ParamClass where
  cls := .ErrorCounter
  objectType := .ERROR_COUNTER
  fields := [.number, .id, .address_in_actual_values, .address_in_data_archive_record, .bit_control, .in_data_archive, .in_daily_archive, .in_monthly_archive, .in_factory_archive, .is_metrological_quantity, .name, .unit, .digit, .number_of_primary_counter, .address_in_daily_archive_record, .address_in_monthly_archive_record, .address_in_billing_archive_record, .decimals]
  body := some [
    .simple (.popInt .number 2),
    .simple (.popInt .id 2),
    .simple (.popInt .address_in_actual_values 2),
    .simple (.popInt .address_in_data_archive_record 2),
    .simple (.popByte .bit_control),
    .simple (.flag .in_data_archive .bit_control 0b00000001),
    .simple (.flag .in_daily_archive .bit_control 0b00000010),
    .simple (.flag .in_monthly_archive .bit_control 0b00000100),
    .simple (.flag .in_factory_archive .bit_control 0b00001000),
    .simple (.flag .is_metrological_quantity .bit_control 0b00010000),
    .simple (.popText .name 23),
    .simple (.popText .unit 8),
    .simple (.popF64 .digit),
    .simple (.popByte .number_of_primary_counter),
    .simple (.popInt .address_in_daily_archive_record 2),
    .simple (.popInt .address_in_monthly_archive_record 2),
    .simple (.popInt .address_in_billing_archive_record 2),
    .ifData
      [.popByte .decimals]
      [.setNone .decimals]]
  kwargs := [(.number, .number), (.id, .id), (.address_in_actual_values, .address_in_actual_values), (.address_in_data_archive_record, .address_in_data_archive_record), (.bit_control, .bit_control), (.in_data_archive, .in_data_archive), (.in_daily_archive, .in_daily_archive), (.in_monthly_archive, .in_monthly_archive), (.in_factory_archive, .in_factory_archive), (.is_metrological_quantity, .is_metrological_quantity), (.name, .name), (.unit, .unit), (.digit, .digit), (.number_of_primary_counter, .number_of_primary_counter), (.address_in_daily_archive_record, .address_in_daily_archive_record), (.address_in_monthly_archive_record, .address_in_monthly_archive_record), (.address_in_billing_archive_record, .address_in_billing_archive_record), (.decimals, .decimals)]

/-- `ErrorStandardCounter` elgas/parameters/error_standard_counter.py:11-79; `from_bytes` error_standard_counter.py:36-79. -/
def errorStandardCounter : ParamClass where
  cls := .ErrorStandardCounter
  objectType := .ERROR_STANDARD_COUNTER
  fields := [.number, .id, .address_in_actual_values, .address_in_data_archive_record, .bit_control, .in_data_archive, .in_daily_archive, .in_monthly_archive, .in_factory_archive, .is_metrological_quantity, .name, .unit, .number_of_standard_counter, .address_in_daily_archive_record, .address_in_monthly_archive_record, .address_in_billing_archive_record, .decimals]
  body := some [
    .simple (.popInt .number 2),
    .simple (.popInt .id 2),
    .simple (.popInt .address_in_actual_values 2),
    .simple (.popInt .address_in_data_archive_record 2),
    .simple (.popByte .bit_control),
    .simple (.flag .in_data_archive .bit_control 0b00000001),
    .simple (.flag .in_daily_archive .bit_control 0b00000010),
    .simple (.flag .in_monthly_archive .bit_control 0b00000100),
    .simple (.flag .in_factory_archive .bit_control 0b00001000),
    .simple (.flag .is_metrological_quantity .bit_control 0b00010000),
    .simple (.popText .name 23),
    .simple (.popText .unit 8),
    .simple (.popByte .number_of_standard_counter),
    .simple (.popInt .address_in_daily_archive_record 2),
    .simple (.popInt .address_in_monthly_archive_record 2),
    .simple (.popInt .address_in_billing_archive_record 2),
    .ifData
      [.popByte .decimals]
      [.setNone .decimals]]
  kwargs := [(.number, .number), (.id, .id), (.address_in_actual_values, .address_in_actual_values), (.address_in_data_archive_record, .address_in_data_archive_record), (.bit_control, .bit_control), (.in_data_archive, .in_data_archive), (.in_daily_archive, .in_daily_archive), (.in_monthly_archive, .in_monthly_archive), (.in_factory_archive, .in_factory_archive), (.is_metrological_quantity, .is_metrological_quantity), (.name, .name), (.unit, .unit), (.number_of_standard_counter, .number_of_standard_counter), (.address_in_daily_archive_record, .address_in_daily_archive_record), (.address_in_monthly_archive_record, .address_in_monthly_archive_record), (.address_in_billing_archive_record, .address_in_billing_archive_record), (.decimals, .decimals)]

/-- `Compressibility` elgas/parameters/compressibility.py:12-69; `from_bytes` compressibility.py:32-69. -/
def compressibility : ParamClass where
  cls := .Compressibility
  objectType := .COMPRESSIBILITY
  fields := [.number, .id, .address_in_actual_values, .address_in_data_archive_record, .bit_control, .in_data_archive, .in_daily_archive, .in_monthly_archive, .is_metrological_quantity, .name, .number_of_conversion_coefficient, .address_in_daily_archive_record, .address_in_monthly_archive_record, .decimals]
  body := some [
    .simple (.popInt .number 2),
    .simple (.popInt .id 2),
    .simple (.popInt .address_in_actual_values 2),
    .simple (.popInt .address_in_data_archive_record 2),
    .simple (.popByte .bit_control),
    .simple (.flag .in_data_archive .bit_control 0b00000001),
    .simple (.flag .in_daily_archive .bit_control 0b00000010),
    .simple (.flag .in_monthly_archive .bit_control 0b00000100),
    .simple (.flag .is_metrological_quantity .bit_control 0b00010000),
    .simple (.popText .name 23),
    .simple (.popByte .number_of_conversion_coefficient),
    .simple (.popInt .address_in_daily_archive_record 2),
    .simple (.popInt .address_in_monthly_archive_record 2),
    .ifData
      [.popByte .decimals]
      [.setNone .decimals]]
  kwargs := [(.number, .number), (.id, .id), (.address_in_actual_values, .address_in_actual_values), (.address_in_data_archive_record, .address_in_data_archive_record), (.bit_control, .bit_control), (.in_data_archive, .in_data_archive), (.in_daily_archive, .in_daily_archive), (.in_monthly_archive, .in_monthly_archive), (.is_metrological_quantity, .is_metrological_quantity), (.name, .name), (.number_of_conversion_coefficient, .number_of_conversion_coefficient), (.address_in_daily_archive_record, .address_in_daily_archive_record), (.address_in_monthly_archive_record, .address_in_monthly_archive_record), (.decimals, .decimals)]

/-- `TimeWindow` elgas/parameters/time_window.py:12-74; `from_bytes` time_window.py:32-74. -/
def timeWindow : ParamClass where
  cls := .TimeWindow
  objectType := .TIME_WINDOW
  fields := [.number, .id, .bit_order_in_actual_values, .bit_order_in_data_archive_record, .bit_order_in_binary_archive_record, .bit_control, .in_binary_archive, .in_data_archive, .name, .rows_in_window, .rows, .action_during_change, .text_log_0, .text_log_1]
  body := some [
    .simple (.popInt .number 2),
    .simple (.popInt .id 2),
    .simple (.popInt .bit_order_in_actual_values 2),
    .simple (.popInt .bit_order_in_data_archive_record 2),
    .simple (.popInt .bit_order_in_binary_archive_record 2),
    .simple (.popByte .bit_control),
    .simple (.flag .in_binary_archive .bit_control 0b00000001),
    .simple (.flag .in_data_archive .bit_control 0b00000010),
    .simple (.popText .name 23),
    .simple (.popByte .rows_in_window),
    .popRows .rows .rows_in_window 10,
    .ifData
      [.popByte .action_during_change, .popText .text_log_0 13, .popText .text_log_1 13]
      [.setNone .action_during_change, .setNone .text_log_0, .setNone .text_log_1],
    .assertEmpty]
  kwargs := [(.number, .number), (.id, .id), (.bit_order_in_actual_values, .bit_order_in_actual_values), (.bit_order_in_data_archive_record, .bit_order_in_data_archive_record), (.bit_order_in_binary_archive_record, .bit_order_in_binary_archive_record), (.bit_control, .bit_control), (.in_binary_archive, .in_binary_archive), (.in_data_archive, .in_data_archive), (.name, .name), (.rows_in_window, .rows_in_window), (.rows, .rows), (.action_during_change, .action_during_change), (.text_log_0, .text_log_0), (.text_log_1, .text_log_1)]

/-- `DoubleCounter` elgas/parameters/counter.py:101-103 (attributes and `from_bytes` of `Counter`, counter.py:13-98); `from_bytes` counter.py:44-98. -/
def doubleCounter : ParamClass where
  cls := .DoubleCounter
  objectType := .DOUBLE_COUNTER
  fields := [.number, .id, .address_in_actual_values, .address_in_data_archive_record, .bit_control, .in_data_archive, .in_daily_archive, .in_monthly_archive, .in_factory_archive, .is_metrological_quantity, .accept_counting_direction, .name, .unit, .digit, .serial_number_of_gas_meter, .error_bit_order_in_actual_values, .error_bit_order_in_binary_archive, .error_bit_order_in_data_archive, .address_in_daily_archive_record, .address_in_monthly_archive_record, .address_in_billing_archive_record, .serial_number_of_gas_meter_text, .decimals]
  body := some [
    .simple (.popInt .number 2),
    .simple (.popInt .id 2),
    .simple (.popInt .address_in_actual_values 2),
    .simple (.popInt .address_in_data_archive_record 2),
    .simple (.popByte .bit_control),
    .simple (.flag .in_data_archive .bit_control 0b00000001),
    .simple (.flag .in_daily_archive .bit_control 0b00000010),
    .simple (.flag .in_monthly_archive .bit_control 0b00000100),
    .simple (.flag .in_factory_archive .bit_control 0b00001000),
    .simple (.flag .is_metrological_quantity .bit_control 0b00010000),
    .simple (.flag .accept_counting_direction .bit_control 0b01000000),
    .simple (.popText .name 23),
    .simple (.popText .unit 8),
    .simple (.popF64 .digit),
    .simple (.popInt .serial_number_of_gas_meter 4),
    .simple (.popInt .error_bit_order_in_actual_values 2),
    .simple (.popInt .error_bit_order_in_binary_archive 2),
    .simple (.popInt .error_bit_order_in_data_archive 2),
    .simple (.popInt .address_in_daily_archive_record 2),
    .simple (.popInt .address_in_monthly_archive_record 2),
    .simple (.popInt .address_in_billing_archive_record 2),
    .simple (.popText .serial_number_of_gas_meter_text 17),
    .ifData
      [.popByte .decimals]
      [.setNone .decimals]]
  kwargs := [(.number, .number), (.id, .id), (.address_in_actual_values, .address_in_actual_values), (.address_in_data_archive_record, .address_in_data_archive_record), (.bit_control, .bit_control), (.in_data_archive, .in_data_archive), (.in_daily_archive, .in_daily_archive), (.in_monthly_archive, .in_monthly_archive), (.in_factory_archive, .in_factory_archive), (.is_metrological_quantity, .is_metrological_quantity), (.accept_counting_direction, .accept_counting_direction), (.name, .name), (.unit, .unit), (.digit, .digit), (.serial_number_of_gas_meter, .serial_number_of_gas_meter), (.error_bit_order_in_actual_values, .error_bit_order_in_actual_values), (.error_bit_order_in_binary_archive, .error_bit_order_in_binary_archive), (.error_bit_order_in_data_archive, .error_bit_order_in_data_archive), (.address_in_daily_archive_record, .address_in_daily_archive_record), (.address_in_monthly_archive_record, .address_in_monthly_archive_record), (.address_in_billing_archive_record, .address_in_billing_archive_record), (.serial_number_of_gas_meter_text, .serial_number_of_gas_meter_text), (.decimals, .decimals)]

/-- `DoubleErrorCounter` elgas/parameters/error_counter.py:87-91 (attributes and `from_bytes` of `ErrorCounter`, error_counter.py:13-84); `from_bytes` error_counter.py:39-84. -/
def doubleErrorCounter : ParamClass where
  cls := .DoubleErrorCounter
  objectType := .DOUBLE_ERROR_COUNTER
  fields := [.number, .id, .address_in_actual_values, .address_in_data_archive_record, .bit_control, .in_data_archive, .in_daily_archive, .in_monthly_archive, .in_factory_archive, .is_metrological_quantity, .name, .unit, .digit, .number_of_primary_counter, .address_in_daily_archive_record, .address_in_monthly_archive_record, .address_in_billing_archive_record, .decimals]
  body := some [
    .simple (.popInt .number 2),
    .simple (.popInt .id 2),
    .simple (.popInt .address_in_actual_values 2),
    .simple (.popInt .address_in_data_archive_record 2),
    .simple (.popByte .bit_control),
    .simple (.flag .in_data_archive .bit_control 0b00000001),
    .simple (.flag .in_daily_archive .bit_control 0b00000010),
    .simple (.flag .in_monthly_archive .bit_control 0b00000100),
    .simple (.flag .in_factory_archive .bit_control 0b00001000),
    .simple (.flag .is_metrological_quantity .bit_control 0b00010000),
    .simple (.popText .name 23),
    .simple (.popText .unit 8),
    .simple (.popF64 .digit),
    .simple (.popByte .number_of_primary_counter),
    .simple (.popInt .address_in_daily_archive_record 2),
    .simple (.popInt .address_in_monthly_archive_record 2),
    .simple (.popInt .address_in_billing_archive_record 2),
    .ifData
      [.popByte .decimals]
      [.setNone .decimals]]
  kwargs := [(.number, .number), (.id, .id), (.address_in_actual_values, .address_in_actual_values), (.address_in_data_archive_record, .address_in_data_archive_record), (.bit_control, .bit_control), (.in_data_archive, .in_data_archive), (.in_daily_archive, .in_daily_archive), (.in_monthly_archive, .in_monthly_archive), (.in_factory_archive, .in_factory_archive), (.is_metrological_quantity, .is_metrological_quantity), (.name, .name), (.unit, .unit), (.digit, .digit), (.number_of_primary_counter, .number_of_primary_counter), (.address_in_daily_archive_record, .address_in_daily_archive_record), (.address_in_monthly_archive_record, .address_in_monthly_archive_record), (.address_in_billing_archive_record, .address_in_billing_archive_record), (.decimals, .decimals)]

/-- `Diagnostics` elgas/parameters/diagnostics.py:12-80; `from_bytes` diagnostics.py:37-80. -/
def diagnostics : ParamClass where
  cls := .Diagnostics
  objectType := .DIAGNOSTICS
  fields := [.number, .id, .address_in_actual_values, .address_in_data_archive_record, .bit_control, .in_data_archive, .in_daily_archive, .in_monthly_archive, .in_factory_archive, .name, .address_in_daily_archive_record, .address_in_monthly_archive_record, .mask_1_of_status_archive, .mask_2_of_status_archive, .mask_1_of_alarm, .mask_2_of_alarm, .mask_1_of_calling_to_dispatching, .mask_2_of_calling_to_dispatching, .action_during_change]
  body := some [
    .simple (.popInt .number 2),
    .simple (.popInt .id 2),
    .simple (.popInt .address_in_actual_values 2),
    .simple (.popInt .address_in_data_archive_record 2),
    .simple (.popByte .bit_control),
    .simple (.flag .in_data_archive .bit_control 0b00000001),
    .simple (.flag .in_daily_archive .bit_control 0b00000010),
    .simple (.flag .in_monthly_archive .bit_control 0b00000100),
    .simple (.flag .in_factory_archive .bit_control 0b00001000),
    .simple (.popText .name 23),
    .simple (.popInt .address_in_daily_archive_record 2),
    .simple (.popInt .address_in_monthly_archive_record 2),
    .simple (.popInt .mask_1_of_status_archive 4),
    .simple (.popInt .mask_2_of_status_archive 4),
    .simple (.popInt .mask_1_of_alarm 4),
    .simple (.popInt .mask_2_of_alarm 4),
    .simple (.popInt .mask_1_of_calling_to_dispatching 4),
    .simple (.popInt .mask_2_of_calling_to_dispatching 4),
    .simple (.popByte .action_during_change)]
  kwargs := [(.number, .number), (.id, .id), (.address_in_actual_values, .address_in_actual_values), (.address_in_data_archive_record, .address_in_data_archive_record), (.bit_control, .bit_control), (.in_data_archive, .in_data_archive), (.in_daily_archive, .in_daily_archive), (.in_monthly_archive, .in_monthly_archive), (.in_factory_archive, .in_factory_archive), (.name, .name), (.address_in_daily_archive_record, .address_in_daily_archive_record), (.address_in_monthly_archive_record, .address_in_monthly_archive_record), (.mask_1_of_status_archive, .mask_1_of_status_archive), (.mask_2_of_status_archive, .mask_2_of_status_archive), (.mask_1_of_alarm, .mask_1_of_alarm), (.mask_2_of_alarm, .mask_2_of_alarm), (.mask_1_of_calling_to_dispatching, .mask_1_of_calling_to_dispatching), (.mask_2_of_calling_to_dispatching, .mask_2_of_calling_to_dispatching), (.action_during_change, .action_during_change)]

/-- `SetPoint` elgas/parameters/setpoint.py:12-78; `from_bytes` setpoint.py:34-78. -/
def setPoint : ParamClass where
  cls := .SetPoint
  objectType := .SET_POINT
  fields := [.number, .id, .bit_order_in_actual_values, .bit_order_in_data_archive_record, .bit_order_in_binary_archive_record, .bit_control, .in_binary_archive, .in_data_archive, .active_indicator, .name, .value_of_limit, .type_of_primary_quantity, .number_of_primary_quantity, .action_during_change, .text_log_0, .text_log_1]
  body := some [
    .simple (.popInt .number 2),
    .simple (.popInt .id 2),
    .simple (.popInt .bit_order_in_actual_values 2),
    .simple (.popInt .bit_order_in_data_archive_record 2),
    .simple (.popInt .bit_order_in_binary_archive_record 2),
    .simple (.popByte .bit_control),
    .simple (.flag .in_binary_archive .bit_control 0b00000001),
    .simple (.flag .in_data_archive .bit_control 0b00000010),
    .simple (.flag .active_indicator .bit_control 0b01000000),
    .simple (.popText .name 23),
    .simple (.popF32 .value_of_limit),
    .simple (.popByte .type_of_primary_quantity),
    .simple (.popByte .number_of_primary_quantity),
    .ifData
      [.popByte .action_during_change, .popText .text_log_0 13, .popText .text_log_1 13]
      [.setNone .action_during_change, .setNone .text_log_0, .setNone .text_log_1],
    .assertEmpty]
  kwargs := [(.number, .number), (.id, .id), (.bit_order_in_actual_values, .bit_order_in_actual_values), (.bit_order_in_data_archive_record, .bit_order_in_data_archive_record), (.bit_order_in_binary_archive_record, .bit_order_in_binary_archive_record), (.bit_control, .bit_control), (.in_binary_archive, .in_binary_archive), (.in_data_archive, .in_data_archive), (.active_indicator, .active_indicator), (.name, .name), (.value_of_limit, .value_of_limit), (.type_of_primary_quantity, .type_of_primary_quantity), (.number_of_primary_quantity, .number_of_primary_quantity), (.action_during_change, .action_during_change), (.text_log_0, .text_log_0), (.text_log_1, .text_log_1)]

/-- `CompressibilityZ` elgas/parameters/compressibility.py:72-74 (attributes and `from_bytes` of `Compressibility`, compressibility.py:12-69); `from_bytes` compressibility.py:32-69. -/
def compressibilityZ : ParamClass where
  cls := .CompressibilityZ
  objectType := .COMPRESSIBILITY_Z
  fields := [.number, .id, .address_in_actual_values, .address_in_data_archive_record, .bit_control, .in_data_archive, .in_daily_archive, .in_monthly_archive, .is_metrological_quantity, .name, .number_of_conversion_coefficient, .address_in_daily_archive_record, .address_in_monthly_archive_record, .decimals]
  body := some [
    .simple (.popInt .number 2),
    .simple (.popInt .id 2),
    .simple (.popInt .address_in_actual_values 2),
    .simple (.popInt .address_in_data_archive_record 2),
    .simple (.popByte .bit_control),
    .simple (.flag .in_data_archive .bit_control 0b00000001),
    .simple (.flag .in_daily_archive .bit_control 0b00000010),
    .simple (.flag .in_monthly_archive .bit_control 0b00000100),
    .simple (.flag .is_metrological_quantity .bit_control 0b00010000),
    .simple (.popText .name 23),
    .simple (.popByte .number_of_conversion_coefficient),
    .simple (.popInt .address_in_daily_archive_record 2),
    .simple (.popInt .address_in_monthly_archive_record 2),
    .ifData
      [.popByte .decimals]
      [.setNone .decimals]]
  kwargs := [(.number, .number), (.id, .id), (.address_in_actual_values, .address_in_actual_values), (.address_in_data_archive_record, .address_in_data_archive_record), (.bit_control, .bit_control), (.in_data_archive, .in_data_archive), (.in_daily_archive, .in_daily_archive), (.in_monthly_archive, .in_monthly_archive), (.is_metrological_quantity, .is_metrological_quantity), (.name, .name), (.number_of_conversion_coefficient, .number_of_conversion_coefficient), (.address_in_daily_archive_record, .address_in_daily_archive_record), (.address_in_monthly_archive_record, .address_in_monthly_archive_record), (.decimals, .decimals)]

/-- `CompressibilityZBase` elgas/parameters/compressibility.py:77-81 (attributes and `from_bytes` of `Compressibility`, compressibility.py:12-69); `from_bytes` compressibility.py:32-69. -/
def compressibilityZBase : ParamClass where
  cls := .CompressibilityZBase
  objectType := .COMPRESSIBILITY_Z_BASE
  fields := [.number, .id, .address_in_actual_values, .address_in_data_archive_record, .bit_control, .in_data_archive, .in_daily_archive, .in_monthly_archive, .is_metrological_quantity, .name, .number_of_conversion_coefficient, .address_in_daily_archive_record, .address_in_monthly_archive_record, .decimals]
  body := some [
    .simple (.popInt .number 2),
    .simple (.popInt .id 2),
    .simple (.popInt .address_in_actual_values 2),
    .simple (.popInt .address_in_data_archive_record 2),
    .simple (.popByte .bit_control),
    .simple (.flag .in_data_archive .bit_control 0b00000001),
    .simple (.flag .in_daily_archive .bit_control 0b00000010),
    .simple (.flag .in_monthly_archive .bit_control 0b00000100),
    .simple (.flag .is_metrological_quantity .bit_control 0b00010000),
    .simple (.popText .name 23),
    .simple (.popByte .number_of_conversion_coefficient),
    .simple (.popInt .address_in_daily_archive_record 2),
    .simple (.popInt .address_in_monthly_archive_record 2),
    .ifData
      [.popByte .decimals]
      [.setNone .decimals]]
  kwargs := [(.number, .number), (.id, .id), (.address_in_actual_values, .address_in_actual_values), (.address_in_data_archive_record, .address_in_data_archive_record), (.bit_control, .bit_control), (.in_data_archive, .in_data_archive), (.in_daily_archive, .in_daily_archive), (.in_monthly_archive, .in_monthly_archive), (.is_metrological_quantity, .is_metrological_quantity), (.name, .name), (.number_of_conversion_coefficient, .number_of_conversion_coefficient), (.address_in_daily_archive_record, .address_in_daily_archive_record), (.address_in_monthly_archive_record, .address_in_monthly_archive_record), (.decimals, .decimals)]

/-- `Energy` elgas/parameters/energy.py:12-85; `from_bytes` energy.py:37-85. -/
def energy : ParamClass where
  cls := .Energy
  objectType := .ENERGY
  fields := [.number, .id, .address_in_actual_values, .address_in_data_archive_record, .bit_control, .in_data_archive, .in_daily_archive, .in_monthly_archive, .in_factory_archive, .is_metrological_quantity, .name, .unit, .number_of_standard_counter, .number_of_calorific_value, .number_of_conversion, .address_in_daily_archive_record, .address_in_monthly_archive_record, .address_in_billing_archive_record, .decimals]
  body := some [
    .simple (.popInt .number 2),
    .simple (.popInt .id 2),
    .simple (.popInt .address_in_actual_values 2),
    .simple (.popInt .address_in_data_archive_record 2),
    .simple (.popByte .bit_control),
    .simple (.flag .in_data_archive .bit_control 0b00000001),
    .simple (.flag .in_daily_archive .bit_control 0b00000010),
    .simple (.flag .in_monthly_archive .bit_control 0b00000100),
    .simple (.flag .in_factory_archive .bit_control 0b00001000),
    .simple (.flag .is_metrological_quantity .bit_control 0b00010000),
    .simple (.popText .name 23),
    .simple (.popText .unit 8),
    .simple (.popByte .number_of_standard_counter),
    .simple (.popByte .number_of_calorific_value),
    .simple (.popByte .number_of_conversion),
    .simple (.popInt .address_in_daily_archive_record 2),
    .simple (.popInt .address_in_monthly_archive_record 2),
    .simple (.popInt .address_in_billing_archive_record 2),
    .ifData
      [.popByte .decimals]
      [.setNone .decimals],
    .assertEmpty]
  kwargs := [(.number, .number), (.id, .id), (.address_in_actual_values, .address_in_actual_values), (.address_in_data_archive_record, .address_in_data_archive_record), (.bit_control, .bit_control), (.in_data_archive, .in_data_archive), (.in_daily_archive, .in_daily_archive), (.in_monthly_archive, .in_monthly_archive), (.in_factory_archive, .in_factory_archive), (.is_metrological_quantity, .is_metrological_quantity), (.name, .name), (.unit, .unit), (.number_of_standard_counter, .number_of_standard_counter), (.number_of_calorific_value, .number_of_calorific_value), (.number_of_conversion, .number_of_conversion), (.address_in_daily_archive_record, .address_in_daily_archive_record), (.address_in_monthly_archive_record, .address_in_monthly_archive_record), (.address_in_billing_archive_record, .address_in_billing_archive_record), (.decimals, .decimals)]

/-- `ErrorEnergy` elgas/parameters/energy.py:88-89 (attributes and `from_bytes` of `Energy`, energy.py:12-85); `from_bytes` energy.py:37-85. -/
def errorEnergy : ParamClass where
  cls := .ErrorEnergy
  objectType := .ERROR_ENERGY
  fields := [.number, .id, .address_in_actual_values, .address_in_data_archive_record, .bit_control, .in_data_archive, .in_daily_archive, .in_monthly_archive, .in_factory_archive, .is_metrological_quantity, .name, .unit, .number_of_standard_counter, .number_of_calorific_value, .number_of_conversion, .address_in_daily_archive_record, .address_in_monthly_archive_record, .address_in_billing_archive_record, .decimals]
  body := some [
    .simple (.popInt .number 2),
    .simple (.popInt .id 2),
    .simple (.popInt .address_in_actual_values 2),
    .simple (.popInt .address_in_data_archive_record 2),
    .simple (.popByte .bit_control),
    .simple (.flag .in_data_archive .bit_control 0b00000001),
    .simple (.flag .in_daily_archive .bit_control 0b00000010),
    .simple (.flag .in_monthly_archive .bit_control 0b00000100),
    .simple (.flag .in_factory_archive .bit_control 0b00001000),
    .simple (.flag .is_metrological_quantity .bit_control 0b00010000),
    .simple (.popText .name 23),
    .simple (.popText .unit 8),
    .simple (.popByte .number_of_standard_counter),
    .simple (.popByte .number_of_calorific_value),
    .simple (.popByte .number_of_conversion),
    .simple (.popInt .address_in_daily_archive_record 2),
    .simple (.popInt .address_in_monthly_archive_record 2),
    .simple (.popInt .address_in_billing_archive_record 2),
    .ifData
      [.popByte .decimals]
      [.setNone .decimals],
    .assertEmpty]
  kwargs := [(.number, .number), (.id, .id), (.address_in_actual_values, .address_in_actual_values), (.address_in_data_archive_record, .address_in_data_archive_record), (.bit_control, .bit_control), (.in_data_archive, .in_data_archive), (.in_daily_archive, .in_daily_archive), (.in_monthly_archive, .in_monthly_archive), (.in_factory_archive, .in_factory_archive), (.is_metrological_quantity, .is_metrological_quantity), (.name, .name), (.unit, .unit), (.number_of_standard_counter, .number_of_standard_counter), (.number_of_calorific_value, .number_of_calorific_value), (.number_of_conversion, .number_of_conversion), (.address_in_daily_archive_record, .address_in_daily_archive_record), (.address_in_monthly_archive_record, .address_in_monthly_archive_record), (.address_in_billing_archive_record, .address_in_billing_archive_record), (.decimals, .decimals)]

/-- `TariffCounter` elgas/parameters/tariff_counter.py:13-86; `from_bytes` tariff_counter.py:38-86. -/
def tariffCounter : ParamClass where
  cls := .TariffCounter
  objectType := .TARIFF_COUNTER
  fields := [.number, .id, .address_in_actual_values, .address_in_data_archive_record, .bit_control, .in_data_archive, .in_daily_archive, .in_monthly_archive, .in_factory_archive, .is_metrological_quantity, .name, .unit, .digit, .number_of_primary_counter, .tariff, .address_in_daily_archive_record, .address_in_monthly_archive_record, .address_in_billing_archive_record, .decimals]
  body := some [
    .simple (.popInt .number 2),
    .simple (.popInt .id 2),
    .simple (.popInt .address_in_actual_values 2),
    .simple (.popInt .address_in_data_archive_record 2),
    .simple (.popByte .bit_control),
    .simple (.flag .in_data_archive .bit_control 0b00000001),
    .simple (.flag .in_daily_archive .bit_control 0b00000010),
    .simple (.flag .in_monthly_archive .bit_control 0b00000100),
    .simple (.flag .in_factory_archive .bit_control 0b00001000),
    .simple (.flag .is_metrological_quantity .bit_control 0b00010000),
    .simple (.popText .name 23),
    .simple (.popText .unit 8),
    .simple (.popF64 .digit),
    .simple (.popByte .number_of_primary_counter),
    .simple (.popByte .tariff),
    .simple (.popInt .address_in_daily_archive_record 2),
    .simple (.popInt .address_in_monthly_archive_record 2),
    .simple (.popInt .address_in_billing_archive_record 2),
    .ifData
      [.popByte .decimals]
      [.setNone .decimals],
    .assertEmpty]
  kwargs := [(.number, .number), (.id, .id), (.address_in_actual_values, .address_in_actual_values), (.address_in_data_archive_record, .address_in_data_archive_record), (.bit_control, .bit_control), (.in_data_archive, .in_data_archive), (.in_daily_archive, .in_daily_archive), (.in_monthly_archive, .in_monthly_archive), (.in_factory_archive, .in_factory_archive), (.is_metrological_quantity, .is_metrological_quantity), (.name, .name), (.unit, .unit), (.digit, .digit), (.number_of_primary_counter, .number_of_primary_counter), (.tariff, .tariff), (.address_in_daily_archive_record, .address_in_daily_archive_record), (.address_in_monthly_archive_record, .address_in_monthly_archive_record), (.address_in_billing_archive_record, .address_in_billing_archive_record), (.decimals, .decimals)]

/-- `DoubleTariffCounter` elgas/parameters/tariff_counter.py:116-120 (attributes and `from_bytes` of `TariffCounter`, tariff_counter.py:13-86); `from_bytes` tariff_counter.py:38-86. -/
def doubleTariffCounter : ParamClass where
  cls := .DoubleTariffCounter
  objectType := .DOUBLE_TARIFF_COUNTER
  fields := [.number, .id, .address_in_actual_values, .address_in_data_archive_record, .bit_control, .in_data_archive, .in_daily_archive, .in_monthly_archive, .in_factory_archive, .is_metrological_quantity, .name, .unit, .digit, .number_of_primary_counter, .tariff, .address_in_daily_archive_record, .address_in_monthly_archive_record, .address_in_billing_archive_record, .decimals]
  body := some [
    .simple (.popInt .number 2),
    .simple (.popInt .id 2),
    .simple (.popInt .address_in_actual_values 2),
    .simple (.popInt .address_in_data_archive_record 2),
    .simple (.popByte .bit_control),
    .simple (.flag .in_data_archive .bit_control 0b00000001),
    .simple (.flag .in_daily_archive .bit_control 0b00000010),
    .simple (.flag .in_monthly_archive .bit_control 0b00000100),
    .simple (.flag .in_factory_archive .bit_control 0b00001000),
    .simple (.flag .is_metrological_quantity .bit_control 0b00010000),
    .simple (.popText .name 23),
    .simple (.popText .unit 8),
    .simple (.popF64 .digit),
    .simple (.popByte .number_of_primary_counter),
    .simple (.popByte .tariff),
    .simple (.popInt .address_in_daily_archive_record 2),
    .simple (.popInt .address_in_monthly_archive_record 2),
    .simple (.popInt .address_in_billing_archive_record 2),
    .ifData
      [.popByte .decimals]
      [.setNone .decimals],
    .assertEmpty]
  kwargs := [(.number, .number), (.id, .id), (.address_in_actual_values, .address_in_actual_values), (.address_in_data_archive_record, .address_in_data_archive_record), (.bit_control, .bit_control), (.in_data_archive, .in_data_archive), (.in_daily_archive, .in_daily_archive), (.in_monthly_archive, .in_monthly_archive), (.in_factory_archive, .in_factory_archive), (.is_metrological_quantity, .is_metrological_quantity), (.name, .name), (.unit, .unit), (.digit, .digit), (.number_of_primary_counter, .number_of_primary_counter), (.tariff, .tariff), (.address_in_daily_archive_record, .address_in_daily_archive_record), (.address_in_monthly_archive_record, .address_in_monthly_archive_record), (.address_in_billing_archive_record, .address_in_billing_archive_record), (.decimals, .decimals)]

/-- `BaseTariffCounter` elgas/parameters/tariff_counter.py:130-200; `from_bytes` tariff_counter.py:154-200. -/
def baseTariffCounter : ParamClass where
  cls := .BaseTariffCounter
  objectType := .BASE_TARIFF_COUNTER
  fields := [.number, .id, .address_in_actual_values, .address_in_data_archive_record, .bit_control, .in_data_archive, .in_daily_archive, .in_monthly_archive, .in_factory_archive, .is_metrological_quantity, .name, .unit, .number_of_base_counter, .tariff, .address_in_daily_archive_record, .address_in_monthly_archive_record, .address_in_billing_archive_record, .decimals]
  body := some [
    .simple (.popInt .number 2),
    .simple (.popInt .id 2),
    .simple (.popInt .address_in_actual_values 2),
    .simple (.popInt .address_in_data_archive_record 2),
    .simple (.popByte .bit_control),
    .simple (.flag .in_data_archive .bit_control 0b00000001),
    .simple (.flag .in_daily_archive .bit_control 0b00000010),
    .simple (.flag .in_monthly_archive .bit_control 0b00000100),
    .simple (.flag .in_factory_archive .bit_control 0b00001000),
    .simple (.flag .is_metrological_quantity .bit_control 0b00010000),
    .simple (.popText .name 23),
    .simple (.popText .unit 8),
    .simple (.popByte .number_of_base_counter),
    .simple (.popByte .tariff),
    .simple (.popInt .address_in_daily_archive_record 2),
    .simple (.popInt .address_in_monthly_archive_record 2),
    .simple (.popInt .address_in_billing_archive_record 2),
    .ifData
      [.popByte .decimals]
      [.setNone .decimals],
    .assertEmpty]
  kwargs := [(.number, .number), (.id, .id), (.address_in_actual_values, .address_in_actual_values), (.address_in_data_archive_record, .address_in_data_archive_record), (.bit_control, .bit_control), (.in_data_archive, .in_data_archive), (.in_daily_archive, .in_daily_archive), (.in_monthly_archive, .in_monthly_archive), (.in_factory_archive, .in_factory_archive), (.is_metrological_quantity, .is_metrological_quantity), (.name, .name), (.unit, .unit), (.number_of_base_counter, .number_of_base_counter), (.tariff, .tariff), (.address_in_daily_archive_record, .address_in_daily_archive_record), (.address_in_monthly_archive_record, .address_in_monthly_archive_record), (.address_in_billing_archive_record, .address_in_billing_archive_record), (.decimals, .decimals)]

/-- `DifferenceCounter` elgas/parameters/difference_counter.py:13-83; `from_bytes` difference_counter.py:37-83. -/
def differenceCounter : ParamClass where
  cls := .DifferenceCounter
  objectType := .DIFFERENCE_COUNTER
  fields := [.number, .id, .address_in_actual_values, .address_in_data_archive_record, .bit_control, .in_data_archive, .in_daily_archive, .in_monthly_archive, .is_double, .is_metrological_quantity, .name, .unit, .digit, .number_of_primary_counter, .address_in_daily_archive_record, .address_in_monthly_archive_record, .address_in_billing_archive_record, .decimals]
  body := some [
    .simple (.popInt .number 2),
    .simple (.popInt .id 2),
    .simple (.popInt .address_in_actual_values 2),
    .simple (.popInt .address_in_data_archive_record 2),
    .simple (.popByte .bit_control),
    .simple (.flag .in_data_archive .bit_control 0b00000001),
    .simple (.flag .in_daily_archive .bit_control 0b00000010),
    .simple (.flag .in_monthly_archive .bit_control 0b00000100),
    .simple (.flag .is_double .bit_control 0b00001000),
    .simple (.flag .is_metrological_quantity .bit_control 0b00010000),
    .simple (.popText .name 23),
    .simple (.popText .unit 8),
    .simple (.popF64 .digit),
    .simple (.popByte .number_of_primary_counter),
    .simple (.popInt .address_in_daily_archive_record 2),
    .simple (.popInt .address_in_monthly_archive_record 2),
    .simple (.popInt .address_in_billing_archive_record 2),
    .ifData
      [.popByte .decimals]
      [.setNone .decimals],
    .assertEmpty]
  kwargs := [(.number, .number), (.id, .id), (.address_in_actual_values, .address_in_actual_values), (.address_in_data_archive_record, .address_in_data_archive_record), (.bit_control, .bit_control), (.in_data_archive, .in_data_archive), (.in_daily_archive, .in_daily_archive), (.in_monthly_archive, .in_monthly_archive), (.is_double, .is_double), (.is_metrological_quantity, .is_metrological_quantity), (.name, .name), (.unit, .unit), (.digit, .digit), (.number_of_primary_counter, .number_of_primary_counter), (.address_in_daily_archive_record, .address_in_daily_archive_record), (.address_in_monthly_archive_record, .address_in_monthly_archive_record), (.address_in_billing_archive_record, .address_in_billing_archive_record), (.decimals, .decimals)]

/-- `DifferenceBaseCounter` elgas/parameters/difference_counter.py:86-90; no `from_bytes`, no attributes. -/
def differenceBaseCounter : ParamClass where
  cls := .DifferenceBaseCounter
  objectType := .DIFFERENCE_BASE_COUNTER
  fields := []
  body := none
  kwargs := []

/-- `Timer` elgas/parameters/timer.py:12-62; `from_bytes` timer.py:31-62. -/
def timer : ParamClass where
  cls := .Timer
  objectType := .TIMER
  fields := [.number, .id, .address_in_actual_values, .address_in_data_archive_record, .bit_control, .in_data_archive, .in_daily_archive, .in_monthly_archive, .is_metrological_quantity, .name, .address_in_daily_archive_record, .address_in_monthly_archive_record]
  body := some [
    .simple (.popInt .number 2),
    .simple (.popInt .id 2),
    .simple (.popInt .address_in_actual_values 2),
    .simple (.popInt .address_in_data_archive_record 2),
    .simple (.popByte .bit_control),
    .simple (.flag .in_data_archive .bit_control 0b00000001),
    .simple (.flag .in_daily_archive .bit_control 0b00000010),
    .simple (.flag .in_monthly_archive .bit_control 0b00000100),
    .simple (.flag .is_metrological_quantity .bit_control 0b00010000),
    .simple (.popText .name 23),
    .simple (.popInt .address_in_daily_archive_record 2),
    .simple (.popInt .address_in_monthly_archive_record 2),
    .assertEmpty]
  kwargs := [(.number, .number), (.id, .id), (.address_in_actual_values, .address_in_actual_values), (.address_in_data_archive_record, .address_in_data_archive_record), (.bit_control, .bit_control), (.in_data_archive, .in_data_archive), (.in_daily_archive, .in_daily_archive), (.in_monthly_archive, .in_monthly_archive), (.is_metrological_quantity, .is_metrological_quantity), (.name, .name), (.address_in_daily_archive_record, .address_in_daily_archive_record), (.address_in_monthly_archive_record, .address_in_monthly_archive_record)]

/-- `DeviceError` elgas/parameters/device_error.py:12-69; `from_bytes` device_error.py:33-69. -/
def deviceError : ParamClass where
  cls := .DeviceError
  objectType := .DEVICE_ERROR
  fields := [.number, .id, .bit_order_in_actual_values, .bit_order_in_data_archive_record, .bit_order_in_binary_archive_record, .bit_control, .in_binary_archive, .in_data_archive, .name, .error_bit_order_in_actual_values, .error_bit_order_in_binary_archive_record, .error_bit_order_in_data_archive_record, .action_during_change, .text_log_0, .text_log_1]
  body := some [
    .simple (.popInt .number 2),
    .simple (.popInt .id 2),
    .simple (.popInt .bit_order_in_actual_values 2),
    .simple (.popInt .bit_order_in_data_archive_record 2),
    .simple (.popInt .bit_order_in_binary_archive_record 2),
    .simple (.popByte .bit_control),
    .simple (.flag .in_binary_archive .bit_control 0b00000001),
    .simple (.flag .in_data_archive .bit_control 0b00000010),
    .simple (.popText .name 23),
    .ifData
      [.popByte .action_during_change, .popText .text_log_0 13, .popText .text_log_1 13]
      [.setNone .action_during_change, .setNone .text_log_0, .setNone .text_log_1],
    .assertEmpty]
  kwargs := [(.number, .number), (.id, .id), (.bit_order_in_actual_values, .bit_order_in_actual_values), (.bit_order_in_data_archive_record, .bit_order_in_data_archive_record), (.bit_order_in_binary_archive_record, .bit_order_in_binary_archive_record), (.bit_control, .bit_control), (.in_binary_archive, .in_binary_archive), (.in_data_archive, .in_data_archive), (.name, .name), (.action_during_change, .action_during_change), (.text_log_0, .text_log_0), (.text_log_1, .text_log_1)]

/-- `SumOfAlarms` elgas/parameters/sum_of_alarms.py:12-69; `from_bytes` sum_of_alarms.py:33-69. -/
def sumOfAlarms : ParamClass where
  cls := .SumOfAlarms
  objectType := .SUM_OF_ALARMS
  fields := [.number, .id, .bit_order_in_actual_values, .bit_order_in_data_archive_record, .bit_order_in_binary_archive_record, .bit_control, .in_binary_archive, .in_data_archive, .name, .error_bit_order_in_actual_values, .error_bit_order_in_binary_archive_record, .error_bit_order_in_data_archive_record, .action_during_change, .text_log_0, .text_log_1]
  body := some [
    .simple (.popInt .number 2),
    .simple (.popInt .id 2),
    .simple (.popInt .bit_order_in_actual_values 2),
    .simple (.popInt .bit_order_in_data_archive_record 2),
    .simple (.popInt .bit_order_in_binary_archive_record 2),
    .simple (.popByte .bit_control),
    .simple (.flag .in_binary_archive .bit_control 0b00000001),
    .simple (.flag .in_data_archive .bit_control 0b00000010),
    .simple (.popText .name 23),
    .ifData
      [.popByte .action_during_change, .popText .text_log_0 13, .popText .text_log_1 13]
      [.setNone .action_during_change, .setNone .text_log_0, .setNone .text_log_1],
    .assertEmpty]
  kwargs := [(.number, .number), (.id, .id), (.bit_order_in_actual_values, .bit_order_in_actual_values), (.bit_order_in_data_archive_record, .bit_order_in_data_archive_record), (.bit_order_in_binary_archive_record, .bit_order_in_binary_archive_record), (.bit_control, .bit_control), (.in_binary_archive, .in_binary_archive), (.in_data_archive, .in_data_archive), (.name, .name), (.action_during_change, .action_during_change), (.text_log_0, .text_log_0), (.text_log_1, .text_log_1)]

/-- `AnalogStatistics` elgas/parameters/statistics.py:13-80; `from_bytes` statistics.py:36-80. -/
def analogStatistics : ParamClass where
  cls := .AnalogStatistics
  objectType := .ANALOG_STATISTICS
  fields := [.number, .id, .address_in_actual_values, .address_in_data_archive_record, .bit_control, .in_data_archive, .in_daily_archive, .in_monthly_archive, .is_metrological_quantity, .name, .unit, .digit, .offset, .number_of_primary_quantity, .statistics_type, .address_in_daily_archive_record, .address_in_monthly_archive_record, .decimals]
  body := some [
    .simple (.popInt .number 2),
    .simple (.popInt .id 2),
    .simple (.popInt .address_in_actual_values 2),
    .simple (.popInt .address_in_data_archive_record 2),
    .simple (.popByte .bit_control),
    .simple (.flag .in_data_archive .bit_control 0b00000001),
    .simple (.flag .in_daily_archive .bit_control 0b00000010),
    .simple (.flag .in_monthly_archive .bit_control 0b00000100),
    .simple (.flag .is_metrological_quantity .bit_control 0b00010000),
    .simple (.popText .name 23),
    .simple (.popText .unit 8),
    .simple (.popF32Round .digit 7),
    .simple (.popF32 .offset),
    .simple (.popByte .number_of_primary_quantity),
    .simple (.popByte .statistics_type),
    .simple (.popInt .address_in_daily_archive_record 2),
    .simple (.popInt .address_in_monthly_archive_record 2),
    .ifData
      [.popByte .decimals]
      [.setNone .decimals]]
  kwargs := [(.number, .number), (.id, .id), (.address_in_actual_values, .address_in_actual_values), (.address_in_data_archive_record, .address_in_data_archive_record), (.bit_control, .bit_control), (.in_data_archive, .in_data_archive), (.in_daily_archive, .in_daily_archive), (.in_monthly_archive, .in_monthly_archive), (.is_metrological_quantity, .is_metrological_quantity), (.name, .name), (.unit, .unit), (.digit, .digit), (.offset, .offset), (.number_of_primary_quantity, .number_of_primary_quantity), (.statistics_type, .statistics_type), (.address_in_daily_archive_record, .address_in_daily_archive_record), (.address_in_monthly_archive_record, .address_in_monthly_archive_record), (.decimals, .decimals)]

/-- `Statistics` elgas/parameters/statistics.py:109-110 (attributes and `from_bytes` of `AnalogStatistics`, statistics.py:13-80); `from_bytes` statistics.py:36-80. -/
def statistics : ParamClass where
  cls := .Statistics
  objectType := .STATISTICS
  fields := [.number, .id, .address_in_actual_values, .address_in_data_archive_record, .bit_control, .in_data_archive, .in_daily_archive, .in_monthly_archive, .is_metrological_quantity, .name, .unit, .digit, .offset, .number_of_primary_quantity, .statistics_type, .address_in_daily_archive_record, .address_in_monthly_archive_record, .decimals]
  body := some [
    .simple (.popInt .number 2),
    .simple (.popInt .id 2),
    .simple (.popInt .address_in_actual_values 2),
    .simple (.popInt .address_in_data_archive_record 2),
    .simple (.popByte .bit_control),
    .simple (.flag .in_data_archive .bit_control 0b00000001),
    .simple (.flag .in_daily_archive .bit_control 0b00000010),
    .simple (.flag .in_monthly_archive .bit_control 0b00000100),
    .simple (.flag .is_metrological_quantity .bit_control 0b00010000),
    .simple (.popText .name 23),
    .simple (.popText .unit 8),
    .simple (.popF32Round .digit 7),
    .simple (.popF32 .offset),
    .simple (.popByte .number_of_primary_quantity),
    .simple (.popByte .statistics_type),
    .simple (.popInt .address_in_daily_archive_record 2),
    .simple (.popInt .address_in_monthly_archive_record 2),
    .ifData
      [.popByte .decimals]
      [.setNone .decimals]]
  kwargs := [(.number, .number), (.id, .id), (.address_in_actual_values, .address_in_actual_values), (.address_in_data_archive_record, .address_in_data_archive_record), (.bit_control, .bit_control), (.in_data_archive, .in_data_archive), (.in_daily_archive, .in_daily_archive), (.in_monthly_archive, .in_monthly_archive), (.is_metrological_quantity, .is_metrological_quantity), (.name, .name), (.unit, .unit), (.digit, .digit), (.offset, .offset), (.number_of_primary_quantity, .number_of_primary_quantity), (.statistics_type, .statistics_type), (.address_in_daily_archive_record, .address_in_daily_archive_record), (.address_in_monthly_archive_record, .address_in_monthly_archive_record), (.decimals, .decimals)]

/-- `AnalogTimeStatistics` elgas/parameters/statistics.py:119-122 (attributes and `from_bytes` of `AnalogStatistics`, statistics.py:13-80); `from_bytes` statistics.py:36-80. -/
def analogTimeStatistics : ParamClass where
  cls := .AnalogTimeStatistics
  objectType := .ANALOG_TIME_STATISTICS
  fields := [.number, .id, .address_in_actual_values, .address_in_data_archive_record, .bit_control, .in_data_archive, .in_daily_archive, .in_monthly_archive, .is_metrological_quantity, .name, .unit, .digit, .offset, .number_of_primary_quantity, .statistics_type, .address_in_daily_archive_record, .address_in_monthly_archive_record, .decimals]
  body := some [
    .simple (.popInt .number 2),
    .simple (.popInt .id 2),
    .simple (.popInt .address_in_actual_values 2),
    .simple (.popInt .address_in_data_archive_record 2),
    .simple (.popByte .bit_control),
    .simple (.flag .in_data_archive .bit_control 0b00000001),
    .simple (.flag .in_daily_archive .bit_control 0b00000010),
    .simple (.flag .in_monthly_archive .bit_control 0b00000100),
    .simple (.flag .is_metrological_quantity .bit_control 0b00010000),
    .simple (.popText .name 23),
    .simple (.popText .unit 8),
    .simple (.popF32Round .digit 7),
    .simple (.popF32 .offset),
    .simple (.popByte .number_of_primary_quantity),
    .simple (.popByte .statistics_type),
    .simple (.popInt .address_in_daily_archive_record 2),
    .simple (.popInt .address_in_monthly_archive_record 2),
    .ifData
      [.popByte .decimals]
      [.setNone .decimals]]
  kwargs := [(.number, .number), (.id, .id), (.address_in_actual_values, .address_in_actual_values), (.address_in_data_archive_record, .address_in_data_archive_record), (.bit_control, .bit_control), (.in_data_archive, .in_data_archive), (.in_daily_archive, .in_daily_archive), (.in_monthly_archive, .in_monthly_archive), (.is_metrological_quantity, .is_metrological_quantity), (.name, .name), (.unit, .unit), (.digit, .digit), (.offset, .offset), (.number_of_primary_quantity, .number_of_primary_quantity), (.statistics_type, .statistics_type), (.address_in_daily_archive_record, .address_in_daily_archive_record), (.address_in_monthly_archive_record, .address_in_monthly_archive_record), (.decimals, .decimals)]

/-- `TimeStatistics` elgas/parameters/statistics.py:131-132 (attributes and `from_bytes` of `AnalogStatistics`, statistics.py:13-80); `from_bytes` statistics.py:36-80. -/
def timeStatistics : ParamClass where
  cls := .TimeStatistics
  objectType := .TIME_STATISTICS
  fields := [.number, .id, .address_in_actual_values, .address_in_data_archive_record, .bit_control, .in_data_archive, .in_daily_archive, .in_monthly_archive, .is_metrological_quantity, .name, .unit, .digit, .offset, .number_of_primary_quantity, .statistics_type, .address_in_daily_archive_record, .address_in_monthly_archive_record, .decimals]
  body := some [
    .simple (.popInt .number 2),
    .simple (.popInt .id 2),
    .simple (.popInt .address_in_actual_values 2),
    .simple (.popInt .address_in_data_archive_record 2),
    .simple (.popByte .bit_control),
    .simple (.flag .in_data_archive .bit_control 0b00000001),
    .simple (.flag .in_daily_archive .bit_control 0b00000010),
    .simple (.flag .in_monthly_archive .bit_control 0b00000100),
    .simple (.flag .is_metrological_quantity .bit_control 0b00010000),
    .simple (.popText .name 23),
    .simple (.popText .unit 8),
    .simple (.popF32Round .digit 7),
    .simple (.popF32 .offset),
    .simple (.popByte .number_of_primary_quantity),
    .simple (.popByte .statistics_type),
    .simple (.popInt .address_in_daily_archive_record 2),
    .simple (.popInt .address_in_monthly_archive_record 2),
    .ifData
      [.popByte .decimals]
      [.setNone .decimals]]
  kwargs := [(.number, .number), (.id, .id), (.address_in_actual_values, .address_in_actual_values), (.address_in_data_archive_record, .address_in_data_archive_record), (.bit_control, .bit_control), (.in_data_archive, .in_data_archive), (.in_daily_archive, .in_daily_archive), (.in_monthly_archive, .in_monthly_archive), (.is_metrological_quantity, .is_metrological_quantity), (.name, .name), (.unit, .unit), (.digit, .digit), (.offset, .offset), (.number_of_primary_quantity, .number_of_primary_quantity), (.statistics_type, .statistics_type), (.address_in_daily_archive_record, .address_in_daily_archive_record), (.address_in_monthly_archive_record, .address_in_monthly_archive_record), (.decimals, .decimals)]

/-- `CounterStatistics` elgas/parameters/statistics.py:142-204; `from_bytes` statistics.py:164-204. -/
def counterStatistics : ParamClass where
  cls := .CounterStatistics
  objectType := .COUNTER_STATISTICS
  fields := [.number, .id, .address_in_actual_values, .address_in_data_archive_record, .bit_control, .in_data_archive, .in_daily_archive, .in_monthly_archive, .is_metrological_quantity, .name, .unit, .digit, .type_of_primary_quantity, .number_of_primary_quantity, .statistics_type, .address_in_daily_archive_record, .address_in_monthly_archive_record]
  body := some [
    .simple (.popInt .number 2),
    .simple (.popInt .id 2),
    .simple (.popInt .address_in_actual_values 2),
    .simple (.popInt .address_in_data_archive_record 2),
    .simple (.popByte .bit_control),
    .simple (.flag .in_data_archive .bit_control 0b00000001),
    .simple (.flag .in_daily_archive .bit_control 0b00000010),
    .simple (.flag .in_monthly_archive .bit_control 0b00000100),
    .simple (.flag .is_metrological_quantity .bit_control 0b00010000),
    .simple (.popText .name 23),
    .simple (.popText .unit 8),
    .simple (.popF64 .digit),
    .simple (.popByte .type_of_primary_quantity),
    .simple (.popByte .number_of_primary_quantity),
    .simple (.popByte .statistics_type),
    .simple (.popInt .address_in_daily_archive_record 2),
    .simple (.popInt .address_in_monthly_archive_record 2),
    .assertEmpty]
  kwargs := [(.number, .number), (.id, .id), (.address_in_actual_values, .address_in_actual_values), (.address_in_data_archive_record, .address_in_data_archive_record), (.bit_control, .bit_control), (.in_data_archive, .in_data_archive), (.in_daily_archive, .in_daily_archive), (.in_monthly_archive, .in_monthly_archive), (.is_metrological_quantity, .is_metrological_quantity), (.name, .name), (.unit, .unit), (.digit, .digit), (.type_of_primary_quantity, .type_of_primary_quantity), (.number_of_primary_quantity, .number_of_primary_quantity), (.statistics_type, .statistics_type), (.address_in_daily_archive_record, .address_in_daily_archive_record), (.address_in_monthly_archive_record, .address_in_monthly_archive_record)]

/-- `StandardCounterStatistics` elgas/parameters/statistics.py:207-210 (attributes and `from_bytes` of `CounterStatistics`, statistics.py:142-204); `from_bytes` statistics.py:164-204. -/
def standardCounterStatistics : ParamClass where
  cls := .StandardCounterStatistics
  objectType := .STANDARD_COUNTER_STATISTICS
  fields := [.number, .id, .address_in_actual_values, .address_in_data_archive_record, .bit_control, .in_data_archive, .in_daily_archive, .in_monthly_archive, .is_metrological_quantity, .name, .unit, .digit, .type_of_primary_quantity, .number_of_primary_quantity, .statistics_type, .address_in_daily_archive_record, .address_in_monthly_archive_record]
  body := some [
    .simple (.popInt .number 2),
    .simple (.popInt .id 2),
    .simple (.popInt .address_in_actual_values 2),
    .simple (.popInt .address_in_data_archive_record 2),
    .simple (.popByte .bit_control),
    .simple (.flag .in_data_archive .bit_control 0b00000001),
    .simple (.flag .in_daily_archive .bit_control 0b00000010),
    .simple (.flag .in_monthly_archive .bit_control 0b00000100),
    .simple (.flag .is_metrological_quantity .bit_control 0b00010000),
    .simple (.popText .name 23),
    .simple (.popText .unit 8),
    .simple (.popF64 .digit),
    .simple (.popByte .type_of_primary_quantity),
    .simple (.popByte .number_of_primary_quantity),
    .simple (.popByte .statistics_type),
    .simple (.popInt .address_in_daily_archive_record 2),
    .simple (.popInt .address_in_monthly_archive_record 2),
    .assertEmpty]
  kwargs := [(.number, .number), (.id, .id), (.address_in_actual_values, .address_in_actual_values), (.address_in_data_archive_record, .address_in_data_archive_record), (.bit_control, .bit_control), (.in_data_archive, .in_data_archive), (.in_daily_archive, .in_daily_archive), (.in_monthly_archive, .in_monthly_archive), (.is_metrological_quantity, .is_metrological_quantity), (.name, .name), (.unit, .unit), (.digit, .digit), (.type_of_primary_quantity, .type_of_primary_quantity), (.number_of_primary_quantity, .number_of_primary_quantity), (.statistics_type, .statistics_type), (.address_in_daily_archive_record, .address_in_daily_archive_record), (.address_in_monthly_archive_record, .address_in_monthly_archive_record)]

/-- `Modem` elgas/parameters/modem.py:11-90; `from_bytes` modem.py:38-90. -/
def modem : ParamClass where
  cls := .Modem
  objectType := .MODEM
  fields := [.number, .bit_control_0, .title, .modem_type, .initialization, .call_to_dispatching, .modem_hang_up, .special_initialization, .ip_address_for_registration_and_diagnostics, .ip_address_for_calling_to_dispatching, .registration_send_period, .authentication_mode, .port_for_registration, .port_for_calling_to_dispatching, .sms_call, .gprs_user_name, .gprs_password, .ip_address_for_ping, .ping_period, .transition_into_command_mode, .pin, .owner_sim_number]
  body := some [
    .simple (.popByte .number),
    .simple (.popByte .bit_control_0),
    .simple (.popText .title 7),
    .simple (.popByte .modem_type),
    .simple (.popText .initialization 32),
    .simple (.popText .call_to_dispatching 32),
    .simple (.popText .modem_hang_up 8),
    .simple (.popText .special_initialization 80),
    .simple (.popIp .ip_address_for_registration_and_diagnostics 4),
    .simple (.popIp .ip_address_for_calling_to_dispatching 4),
    .simple (.popByte .registration_send_period),
    .simple (.popByte .authentication_mode),
    .simple (.popInt .port_for_registration 2),
    .simple (.popInt .port_for_calling_to_dispatching 2),
    .simple (.popText .sms_call 32),
    .simple (.popText .gprs_user_name 49),
    .simple (.popHex .gprs_password 33),
    .simple (.popIp .ip_address_for_ping 4),
    .simple (.popInt .ping_period 2),
    .simple (.popText .transition_into_command_mode 8),
    .simple (.popHex .pin 9),
    .simple (.popText .owner_sim_number 17),
    .assertEmpty]
  kwargs := [(.number, .number), (.bit_control_0, .bit_control_0), (.title, .title), (.modem_type, .modem_type), (.initialization, .initialization), (.call_to_dispatching, .call_to_dispatching), (.modem_hang_up, .modem_hang_up), (.special_initialization, .special_initialization), (.ip_address_for_registration_and_diagnostics, .ip_address_for_registration_and_diagnostics), (.ip_address_for_calling_to_dispatching, .ip_address_for_calling_to_dispatching), (.registration_send_period, .registration_send_period), (.authentication_mode, .authentication_mode), (.port_for_registration, .port_for_registration), (.port_for_calling_to_dispatching, .port_for_calling_to_dispatching), (.sms_call, .sms_call), (.gprs_user_name, .gprs_user_name), (.gprs_password, .gprs_password), (.ip_address_for_ping, .ip_address_for_ping), (.ping_period, .ping_period), (.transition_into_command_mode, .transition_into_command_mode), (.pin, .pin), (.owner_sim_number, .owner_sim_number)]

/-- `CorrectionCounter` elgas/parameters/error_counter.py:94-96 (attributes and `from_bytes` of `ErrorCounter`, error_counter.py:13-84); `from_bytes` error_counter.py:39-84. -/
def correctionCounter : ParamClass where
  cls := .CorrectionCounter
  objectType := .CORRECTION_COUNTER
  fields := [.number, .id, .address_in_actual_values, .address_in_data_archive_record, .bit_control, .in_data_archive, .in_daily_archive, .in_monthly_archive, .in_factory_archive, .is_metrological_quantity, .name, .unit, .digit, .number_of_primary_counter, .address_in_daily_archive_record, .address_in_monthly_archive_record, .address_in_billing_archive_record, .decimals]
  body := some [
    .simple (.popInt .number 2),
    .simple (.popInt .id 2),
    .simple (.popInt .address_in_actual_values 2),
    .simple (.popInt .address_in_data_archive_record 2),
    .simple (.popByte .bit_control),
    .simple (.flag .in_data_archive .bit_control 0b00000001),
    .simple (.flag .in_daily_archive .bit_control 0b00000010),
    .simple (.flag .in_monthly_archive .bit_control 0b00000100),
    .simple (.flag .in_factory_archive .bit_control 0b00001000),
    .simple (.flag .is_metrological_quantity .bit_control 0b00010000),
    .simple (.popText .name 23),
    .simple (.popText .unit 8),
    .simple (.popF64 .digit),
    .simple (.popByte .number_of_primary_counter),
    .simple (.popInt .address_in_daily_archive_record 2),
    .simple (.popInt .address_in_monthly_archive_record 2),
    .simple (.popInt .address_in_billing_archive_record 2),
    .ifData
      [.popByte .decimals]
      [.setNone .decimals]]
  kwargs := [(.number, .number), (.id, .id), (.address_in_actual_values, .address_in_actual_values), (.address_in_data_archive_record, .address_in_data_archive_record), (.bit_control, .bit_control), (.in_data_archive, .in_data_archive), (.in_daily_archive, .in_daily_archive), (.in_monthly_archive, .in_monthly_archive), (.in_factory_archive, .in_factory_archive), (.is_metrological_quantity, .is_metrological_quantity), (.name, .name), (.unit, .unit), (.digit, .digit), (.number_of_primary_counter, .number_of_primary_counter), (.address_in_daily_archive_record, .address_in_daily_archive_record), (.address_in_monthly_archive_record, .address_in_monthly_archive_record), (.address_in_billing_archive_record, .address_in_billing_archive_record), (.decimals, .decimals)]

/-- `ParameterFactory.object_map` elgas/parameters/factory.py:85-121. -/
def objectMap : ObjType → Option ParamClass
  | .SYSTEM_PARAMETER => some systemParameters
  | .ANALOG_MEASURAND => some analogQuantity
  | .BINARY => some binary
  | .COUNTER => some counter
  | .STANDARD_COUNTER => some standardCounter
  | .FLOW_RATE => some flowRate
  | .STANDARD_FLOW_RATE => some standardFlowRate
  | .CONVERSION_COEFFICIENT => some conversionCoefficient
  | .ERROR_COUNTER => some errorCounter
  | .ERROR_STANDARD_COUNTER => some errorStandardCounter
  | .COMPRESSIBILITY => some compressibility
  | .TIME_WINDOW => some timeWindow
  | .DOUBLE_COUNTER => some doubleCounter
  | .DOUBLE_ERROR_COUNTER => some doubleErrorCounter
  | .DIAGNOSTICS => some diagnostics
  | .SET_POINT => some setPoint
  | .COMPRESSIBILITY_Z => some compressibilityZ
  | .COMPRESSIBILITY_Z_BASE => some compressibilityZBase
  | .ENERGY => some energy
  | .ERROR_ENERGY => some errorEnergy
  | .TARIFF_COUNTER => some tariffCounter
  | .DOUBLE_TARIFF_COUNTER => some doubleTariffCounter
  | .BASE_TARIFF_COUNTER => some baseTariffCounter
  | .DIFFERENCE_COUNTER => some differenceCounter
  | .DIFFERENCE_BASE_COUNTER => some differenceBaseCounter
  | .TIMER => some timer
  | .DEVICE_ERROR => some deviceError
  | .SUM_OF_ALARMS => some sumOfAlarms
  | .ANALOG_STATISTICS => some analogStatistics
  | .STATISTICS => some statistics
  | .ANALOG_TIME_STATISTICS => some analogTimeStatistics
  | .TIME_STATISTICS => some timeStatistics
  | .COUNTER_STATISTICS => some counterStatistics
  | .STANDARD_COUNTER_STATISTICS => some standardCounterStatistics
  | .MODEM => some modem
  | _ => none

/-- The class a `post_load` hook names (elgas/parameters/*.py module scope). -/
def classOf : Cls → Option ParamClass
  | .SystemParameters => some systemParameters
  | .AnalogQuantity => some analogQuantity
  | .Binary => some binary
  | .Counter => some counter
  | .StandardCounter => some standardCounter
  | .FlowRate => some flowRate
  | .StandardFlowRate => some standardFlowRate
  | .ConversionCoefficient => some conversionCoefficient
  | .ErrorCounter => some errorCounter
  | .ErrorStandardCounter => some errorStandardCounter
  | .Compressibility => some compressibility
  | .TimeWindow => some timeWindow
  | .DoubleCounter => some doubleCounter
  | .DoubleErrorCounter => some doubleErrorCounter
  | .Diagnostics => some diagnostics
  | .SetPoint => some setPoint
  | .CompressibilityZ => some compressibilityZ
  | .CompressibilityZBase => some compressibilityZBase
  | .Energy => some energy
  | .ErrorEnergy => some errorEnergy
  | .TariffCounter => some tariffCounter
  | .DoubleTariffCounter => some doubleTariffCounter
  | .BaseTariffCounter => some baseTariffCounter
  | .DifferenceCounter => some differenceCounter
  | .DifferenceBaseCounter => some differenceBaseCounter
  | .Timer => some timer
  | .DeviceError => some deviceError
  | .SumOfAlarms => some sumOfAlarms
  | .AnalogStatistics => some analogStatistics
  | .Statistics => some statistics
  | .AnalogTimeStatistics => some analogTimeStatistics
  | .TimeStatistics => some timeStatistics
  | .CounterStatistics => some counterStatistics
  | .StandardCounterStatistics => some standardCounterStatistics
  | .Modem => some modem
  | .CorrectionCounter => some correctionCounter
  | .GasComposition => none

/-- `SystemParametersSchema` elgas/parameters/system_parameters.py:233-300. -/
def systemParametersSchema : SchemaDef where
  fields := [
    (.device_type, .integer, false),
    (.serial_number, .integer, false),
    (.firmware_version, .string, false),
    (.service_version, .integer, false),
    (.certification_variant, .integer, false),
    (.station_id, .string, false),
    (.password_for_full_access_active, .boolean, false),
    (.password_for_reading_is_on, .boolean, false),
    (.metrological_switch, .boolean, false),
    (.user_switch, .boolean, false),
    (.switch_function, .integer, false),
    (.parameter_crc, .integer, false),
    (.measuring_period, .integer, false),
    (.archive_period, .integer, false),
    (.base_pressure, .floatStr, false),
    (.base_temperature, .floatStr, false),
    (.compressibility_formula, .integer, false),
    (.gas_composition, .gas, false),
    (.data_archive_record_length, .integer, false),
    (.binary_archive_record_length, .integer, false),
    (.daily_archive_record_length, .integer, false),
    (.monthly_archive_record_length, .integer, false),
    (.instantaneous_values_error_bit_order, .integer, false),
    (.binary_archive_record_error_bit_order, .integer, false),
    (.data_archive_record_error_bit_order, .integer, false),
    (.optical_port_speed, .integer, false),
    (.optical_port_protocol, .integer, false),
    (.optical_port_bit_control, .integer, false),
    (.communication_port_0_speed, .integer, false),
    (.communication_port_0_protocol, .integer, false),
    (.communication_port_0_bit_control, .integer, false),
    (.communication_port_1_speed, .integer, false),
    (.communication_port_1_protocol, .integer, false),
    (.communication_port_1_bit_control, .integer, false),
    (.communication_port_2_speed, .integer, false),
    (.communication_port_2_protocol, .integer, false),
    (.communication_port_2_bit_control, .integer, false),
    (.gas_day_hour, .integer, false),
    (.fixed_barometric_pressure, .floatStr, false),
    (.altitude, .floatStr, false),
    (.status_archive_record_length, .integer, false),
    (.pressure_unit_type, .integer, false),
    (.pressure_unit_text, .string, false),
    (.temperature_unit_type, .integer, false),
    (.temperature_unit_text, .string, false),
    (.altitude_unit_type, .integer, false),
    (.altitude_unit_text, .string, false),
    (.gross_calorific_value_type, .integer, false),
    (.gross_calorific_value_text, .string, false),
    (.dst_region, .integer, false),
    (.gmt_hour_shift, .integer, false),
    (.billing_archive_record_length, .integer, false),
    (.conditions_for_combustion_heat, .integer, false),
    (.device_variant, .integer, false),
    (.bit_control, .integer, false),
    (.places_for_corrected_volume_counters, .integer, false),
    (.device_features_bits, .integer, false),
    (.device_features, .string, false),
    (.version_metrological_part, .string, false),
    (.metrological_crc, .integer, false),
    (.metrological_crc_32, .integer, false),
    (.application_crc_32, .integer, false)]
  postLoad := some .SystemParameters

/-- `AnalogQuantitySchema` elgas/parameters/analog_quantity.py:107-136. -/
def analogQuantitySchema : SchemaDef where
  fields := [
    (.number, .integer, false),
    (.id, .integer, false),
    (.address_in_actual_values, .integer, false),
    (.address_in_data_archive_record, .integer, false),
    (.bit_control, .integer, false),
    (.in_data_archive, .boolean, false),
    (.in_daily_archive, .boolean, false),
    (.in_monthly_archive, .boolean, false),
    (.is_metrological_quantity, .boolean, false),
    (.in_fast_archive_1, .boolean, false),
    (.in_fast_archvie_2, .boolean, false),
    (.name, .string, false),
    (.unit, .string, false),
    (.digit, .number, false),
    (.offset, .number, false),
    (.lower_limit_measuring_range, .number, false),
    (.upper_limit_measuring_range, .number, false),
    (.serial_number_transducer, .integer, false),
    (.error_bit_order_in_actual_values, .integer, false),
    (.error_bit_order_in_binary_archive, .integer, false),
    (.error_bit_order_in_data_archive, .integer, false),
    (.address_in_daily_archive_record, .integer, false),
    (.address_in_monthly_archive_record, .integer, false),
    (.samples_in_fast_archive, .integer, false),
    (.decimals, .integer, true)]
  postLoad := some .AnalogQuantity

/-- `BinarySchema` elgas/parameters/binary.py:86-108. -/
def binarySchema : SchemaDef where
  fields := [
    (.number, .integer, false),
    (.id, .integer, false),
    (.bit_order_in_actual_values, .integer, false),
    (.bit_order_in_data_archive_record, .integer, false),
    (.bit_order_in_binary_archive_record, .integer, false),
    (.bit_control, .integer, false),
    (.in_binary_archive, .boolean, false),
    (.in_data_archive, .boolean, false),
    (.active_indicator, .boolean, false),
    (.name, .string, false),
    (.error_bit_order_in_actual_values, .integer, false),
    (.error_bit_order_in_binary_archive_record, .integer, false),
    (.error_bit_order_in_data_archive_record, .integer, false),
    (.action_during_change, .integer, true),
    (.text_log_0, .string, true),
    (.text_log_1, .string, true)]
  postLoad := some .Binary

/-- `CounterSchema` elgas/parameters/counter.py:106-136. -/
def counterSchema : SchemaDef where
  fields := [
    (.number, .integer, false),
    (.id, .integer, false),
    (.address_in_actual_values, .integer, false),
    (.address_in_data_archive_record, .integer, false),
    (.bit_control, .integer, false),
    (.in_data_archive, .boolean, false),
    (.in_daily_archive, .boolean, false),
    (.in_monthly_archive, .boolean, false),
    (.in_factory_archive, .boolean, false),
    (.is_metrological_quantity, .boolean, false),
    (.accept_counting_direction, .boolean, false),
    (.name, .string, false),
    (.unit, .string, false),
    (.digit, .floatStr, false),
    (.serial_number_of_gas_meter, .integer, false),
    (.error_bit_order_in_actual_values, .integer, false),
    (.error_bit_order_in_binary_archive, .integer, false),
    (.error_bit_order_in_data_archive, .integer, false),
    (.address_in_daily_archive_record, .integer, false),
    (.address_in_monthly_archive_record, .integer, false),
    (.address_in_billing_archive_record, .integer, false),
    (.serial_number_of_gas_meter_text, .string, false),
    (.decimals, .integer, true)]
  postLoad := some .Counter

/-- `StandardCounterSchema` elgas/parameters/standard_counter.py:85-108. -/
def standardCounterSchema : SchemaDef where
  fields := [
    (.number, .integer, false),
    (.id, .integer, false),
    (.address_in_actual_values, .integer, false),
    (.address_in_data_archive_record, .integer, false),
    (.bit_control, .integer, false),
    (.in_data_archive, .boolean, false),
    (.in_daily_archive, .boolean, false),
    (.in_monthly_archive, .boolean, false),
    (.in_factory_archive, .boolean, false),
    (.is_metrological_quantity, .boolean, false),
    (.name, .string, false),
    (.unit, .string, false),
    (.number_of_primary_counter, .integer, false),
    (.number_of_conversion, .integer, false),
    (.address_in_daily_archive_record, .integer, false),
    (.address_in_monthly_archive_record, .integer, false),
    (.address_in_billing_archive_record, .integer, false),
    (.decimals, .integer, true)]
  postLoad := some .StandardCounter

/-- `FlowRateSchema` elgas/parameters/flow_rate.py:82-105. -/
def flowRateSchema : SchemaDef where
  fields := [
    (.number, .integer, false),
    (.id, .integer, false),
    (.address_in_actual_values, .integer, false),
    (.address_in_data_archive_record, .integer, false),
    (.bit_control, .integer, false),
    (.in_data_archive, .integer, false),
    (.in_daily_archive, .integer, false),
    (.in_monthly_archive, .integer, false),
    (.is_metrological_quantity, .integer, false),
    (.name, .string, false),
    (.unit, .string, false),
    (.error_bit_order_in_actual_values, .integer, false),
    (.error_bit_order_in_binary_archive, .integer, false),
    (.error_bit_order_in_data_archive, .integer, false),
    (.address_in_daily_archive_record, .integer, false),
    (.address_in_monthly_archive_record, .integer, false),
    (.decimals, .integer, false)]
  postLoad := some .FlowRate

/-- `StandardFlowRateSchema` elgas/parameters/flow_rate.py:175-196. -/
def standardFlowRateSchema : SchemaDef where
  fields := [
    (.number, .integer, false),
    (.id, .integer, false),
    (.address_in_actual_values, .integer, false),
    (.address_in_data_archive_record, .integer, false),
    (.bit_control, .integer, false),
    (.in_data_archive, .boolean, false),
    (.in_daily_archive, .boolean, false),
    (.in_monthly_archive, .boolean, false),
    (.is_metrological_quantity, .boolean, false),
    (.name, .string, false),
    (.unit, .string, false),
    (.number_of_primary_flow_rate, .integer, false),
    (.number_of_conversion, .integer, false),
    (.address_in_daily_archive_record, .integer, false),
    (.address_in_monthly_archive_record, .integer, false),
    (.decimals, .integer, true)]
  postLoad := some .StandardFlowRate

/-- `ConversionCoefficientSchema` elgas/parameters/conversion_coefficient.py:90-117. -/
def conversionCoefficientSchema : SchemaDef where
  fields := [
    (.number, .integer, false),
    (.id, .integer, false),
    (.address_in_actual_values, .integer, false),
    (.address_in_data_archive_record, .integer, false),
    (.bit_control, .integer, false),
    (.in_data_archive, .boolean, false),
    (.in_daily_archive, .boolean, false),
    (.in_monthly_archive, .boolean, false),
    (.is_metrological_quantity, .boolean, false),
    (.name, .string, false),
    (.number_of_analog_pressure, .integer, false),
    (.number_of_analog_temperature, .integer, false),
    (.compressibility_calculation_method, .integer, false),
    (.default_value_pressure, .floatStr, false),
    (.default_value_temperature, .floatStr, false),
    (.alternate_value_of_compressibility, .floatStr, false),
    (.address_in_daily_archive_record, .integer, false),
    (.address_in_monthly_archive_record, .integer, false),
    (.decimals, .integer, true)]
  postLoad := some .ConversionCoefficient

/-- `ErrorCounterSchema` elgas/parameters/error_counter.py:99-123. -/
def errorCounterSchema : SchemaDef where
  fields := [
    (.number, .integer, false),
    (.id, .integer, false),
    (.address_in_actual_values, .integer, false),
    (.address_in_data_archive_record, .integer, false),
    (.bit_control, .integer, false),
    (.in_data_archive, .boolean, false),
    (.in_daily_archive, .boolean, false),
    (.in_monthly_archive, .boolean, false),
    (.in_factory_archive, .boolean, false),
    (.is_metrological_quantity, .boolean, false),
    (.name, .string, false),
    (.unit, .string, false),
    (.digit, .floatStr, false),
    (.number_of_primary_counter, .integer, false),
    (.address_in_daily_archive_record, .integer, false),
    (.address_in_monthly_archive_record, .integer, false),
    (.address_in_billing_archive_record, .integer, false),
    (.decimals, .integer, true)]
  postLoad := some .ErrorCounter

/-- `ErrorStandardCounterSchema` elgas/parameters/error_standard_counter.py:82-100. -/
def errorStandardCounterSchema : SchemaDef where
  fields := [
    (.number, .integer, false),
    (.id, .integer, false),
    (.address_in_actual_values, .integer, false),
    (.address_in_data_archive_record, .integer, false),
    (.bit_control, .integer, false),
    (.in_data_archive, .boolean, false),
    (.in_daily_archive, .boolean, false),
    (.in_monthly_archive, .boolean, false),
    (.in_factory_archive, .boolean, false),
    (.is_metrological_quantity, .boolean, false),
    (.name, .string, false),
    (.unit, .string, false),
    (.number_of_standard_counter, .integer, false),
    (.address_in_daily_archive_record, .integer, false),
    (.address_in_monthly_archive_record, .integer, false),
    (.address_in_billing_archive_record, .integer, false),
    (.decimals, .integer, true)]
  postLoad := none

/-- `CompressibilitySchema` elgas/parameters/compressibility.py:84-103. -/
def compressibilitySchema : SchemaDef where
  fields := [
    (.number, .integer, false),
    (.id, .integer, false),
    (.address_in_actual_values, .integer, false),
    (.address_in_data_archive_record, .integer, false),
    (.bit_control, .integer, false),
    (.in_data_archive, .boolean, false),
    (.in_daily_archive, .boolean, false),
    (.in_monthly_archive, .boolean, false),
    (.is_metrological_quantity, .boolean, false),
    (.name, .string, false),
    (.number_of_conversion_coefficient, .integer, false),
    (.address_in_daily_archive_record, .integer, false),
    (.address_in_monthly_archive_record, .integer, false),
    (.decimals, .integer, true)]
  postLoad := some .Compressibility

/-- `TimeWindowSchema` elgas/parameters/time_window.py:77-97. -/
def timeWindowSchema : SchemaDef where
  fields := [
    (.number, .integer, false),
    (.id, .integer, false),
    (.bit_order_in_actual_values, .integer, false),
    (.bit_order_in_data_archive_record, .integer, false),
    (.bit_order_in_binary_archive_record, .integer, false),
    (.bit_control, .integer, false),
    (.in_binary_archive, .boolean, false),
    (.in_data_archive, .boolean, false),
    (.name, .string, false),
    (.rows_in_window, .integer, false),
    (.rows, .stringList, false),
    (.action_during_change, .integer, true),
    (.text_log_0, .string, true),
    (.text_log_1, .string, true)]
  postLoad := some .TimeWindow

/-- `DoubleCounterSchema` elgas/parameters/counter.py:139-142 (fields of `CounterSchema`, counter.py:106-136). -/
def doubleCounterSchema : SchemaDef where
  fields := [
    (.number, .integer, false),
    (.id, .integer, false),
    (.address_in_actual_values, .integer, false),
    (.address_in_data_archive_record, .integer, false),
    (.bit_control, .integer, false),
    (.in_data_archive, .boolean, false),
    (.in_daily_archive, .boolean, false),
    (.in_monthly_archive, .boolean, false),
    (.in_factory_archive, .boolean, false),
    (.is_metrological_quantity, .boolean, false),
    (.accept_counting_direction, .boolean, false),
    (.name, .string, false),
    (.unit, .string, false),
    (.digit, .floatStr, false),
    (.serial_number_of_gas_meter, .integer, false),
    (.error_bit_order_in_actual_values, .integer, false),
    (.error_bit_order_in_binary_archive, .integer, false),
    (.error_bit_order_in_data_archive, .integer, false),
    (.address_in_daily_archive_record, .integer, false),
    (.address_in_monthly_archive_record, .integer, false),
    (.address_in_billing_archive_record, .integer, false),
    (.serial_number_of_gas_meter_text, .string, false),
    (.decimals, .integer, true)]
  postLoad := some .DoubleCounter

/-- `DoubleErrorCounterSchema` elgas/parameters/error_counter.py:126-129 (fields of `ErrorCounterSchema`, error_counter.py:99-123). -/
def doubleErrorCounterSchema : SchemaDef where
  fields := [
    (.number, .integer, false),
    (.id, .integer, false),
    (.address_in_actual_values, .integer, false),
    (.address_in_data_archive_record, .integer, false),
    (.bit_control, .integer, false),
    (.in_data_archive, .boolean, false),
    (.in_daily_archive, .boolean, false),
    (.in_monthly_archive, .boolean, false),
    (.in_factory_archive, .boolean, false),
    (.is_metrological_quantity, .boolean, false),
    (.name, .string, false),
    (.unit, .string, false),
    (.digit, .floatStr, false),
    (.number_of_primary_counter, .integer, false),
    (.address_in_daily_archive_record, .integer, false),
    (.address_in_monthly_archive_record, .integer, false),
    (.address_in_billing_archive_record, .integer, false),
    (.decimals, .integer, true)]
  postLoad := some .DoubleErrorCounter

/-- `DiagnosticsSchema` elgas/parameters/diagnostics.py:83-108. -/
def diagnosticsSchema : SchemaDef where
  fields := [
    (.number, .integer, false),
    (.id, .integer, false),
    (.address_in_actual_values, .integer, false),
    (.address_in_data_archive_record, .integer, false),
    (.bit_control, .integer, false),
    (.in_data_archive, .boolean, false),
    (.in_daily_archive, .boolean, false),
    (.in_monthly_archive, .boolean, false),
    (.in_factory_archive, .boolean, false),
    (.name, .string, false),
    (.address_in_daily_archive_record, .integer, false),
    (.address_in_monthly_archive_record, .integer, false),
    (.mask_1_of_status_archive, .integer, false),
    (.mask_2_of_status_archive, .integer, false),
    (.mask_1_of_alarm, .integer, false),
    (.mask_2_of_alarm, .integer, false),
    (.mask_1_of_calling_to_dispatching, .integer, false),
    (.mask_2_of_calling_to_dispatching, .integer, false),
    (.action_during_change, .integer, false)]
  postLoad := some .Diagnostics

/-- `SetPointSchema` elgas/parameters/setpoint.py:81-99. -/
def setPointSchema : SchemaDef where
  fields := [
    (.number, .integer, false),
    (.id, .integer, false),
    (.bit_order_in_actual_values, .integer, false),
    (.bit_order_in_data_archive_record, .integer, false),
    (.bit_order_in_binary_archive_record, .integer, false),
    (.bit_control, .integer, false),
    (.in_binary_archive, .boolean, false),
    (.in_data_archive, .boolean, false),
    (.active_indicator, .boolean, false),
    (.name, .string, false),
    (.value_of_limit, .floatStr, false),
    (.type_of_primary_quantity, .integer, false),
    (.number_of_primary_quantity, .integer, false),
    (.action_during_change, .integer, true),
    (.text_log_0, .string, true),
    (.text_log_1, .string, true)]
  postLoad := none

/-- `CompressibilityZSchema` elgas/parameters/compressibility.py:106-109 (fields of `CompressibilitySchema`, compressibility.py:84-103). -/
def compressibilityZSchema : SchemaDef where
  fields := [
    (.number, .integer, false),
    (.id, .integer, false),
    (.address_in_actual_values, .integer, false),
    (.address_in_data_archive_record, .integer, false),
    (.bit_control, .integer, false),
    (.in_data_archive, .boolean, false),
    (.in_daily_archive, .boolean, false),
    (.in_monthly_archive, .boolean, false),
    (.is_metrological_quantity, .boolean, false),
    (.name, .string, false),
    (.number_of_conversion_coefficient, .integer, false),
    (.address_in_daily_archive_record, .integer, false),
    (.address_in_monthly_archive_record, .integer, false),
    (.decimals, .integer, true)]
  postLoad := some .CompressibilityZ

/-- `CompressibilityZBaseSchema` elgas/parameters/compressibility.py:112-115 (fields of `CompressibilitySchema`, compressibility.py:84-103). -/
def compressibilityZBaseSchema : SchemaDef where
  fields := [
    (.number, .integer, false),
    (.id, .integer, false),
    (.address_in_actual_values, .integer, false),
    (.address_in_data_archive_record, .integer, false),
    (.bit_control, .integer, false),
    (.in_data_archive, .boolean, false),
    (.in_daily_archive, .boolean, false),
    (.in_monthly_archive, .boolean, false),
    (.is_metrological_quantity, .boolean, false),
    (.name, .string, false),
    (.number_of_conversion_coefficient, .integer, false),
    (.address_in_daily_archive_record, .integer, false),
    (.address_in_monthly_archive_record, .integer, false),
    (.decimals, .integer, true)]
  postLoad := some .CompressibilityZBase

/-- `EnergySchema` elgas/parameters/energy.py:92-117. -/
def energySchema : SchemaDef where
  fields := [
    (.number, .integer, false),
    (.id, .integer, false),
    (.address_in_actual_values, .integer, false),
    (.address_in_data_archive_record, .integer, false),
    (.bit_control, .integer, false),
    (.in_data_archive, .boolean, false),
    (.in_daily_archive, .boolean, false),
    (.in_monthly_archive, .boolean, false),
    (.in_factory_archive, .boolean, false),
    (.is_metrological_quantity, .boolean, false),
    (.name, .string, false),
    (.unit, .string, false),
    (.number_of_standard_counter, .integer, false),
    (.number_of_calorific_value, .integer, false),
    (.number_of_conversion, .integer, false),
    (.address_in_daily_archive_record, .integer, false),
    (.address_in_monthly_archive_record, .integer, false),
    (.address_in_billing_archive_record, .integer, false),
    (.decimals, .integer, true)]
  postLoad := some .Energy

/-- `ErrorEnergySchema` elgas/parameters/energy.py:120-123 (fields of `EnergySchema`, energy.py:92-117). -/
def errorEnergySchema : SchemaDef where
  fields := [
    (.number, .integer, false),
    (.id, .integer, false),
    (.address_in_actual_values, .integer, false),
    (.address_in_data_archive_record, .integer, false),
    (.bit_control, .integer, false),
    (.in_data_archive, .boolean, false),
    (.in_daily_archive, .boolean, false),
    (.in_monthly_archive, .boolean, false),
    (.in_factory_archive, .boolean, false),
    (.is_metrological_quantity, .boolean, false),
    (.name, .string, false),
    (.unit, .string, false),
    (.number_of_standard_counter, .integer, false),
    (.number_of_calorific_value, .integer, false),
    (.number_of_conversion, .integer, false),
    (.address_in_daily_archive_record, .integer, false),
    (.address_in_monthly_archive_record, .integer, false),
    (.address_in_billing_archive_record, .integer, false),
    (.decimals, .integer, true)]
  postLoad := some .ErrorEnergy

/-- `TariffCounterSchema` elgas/parameters/tariff_counter.py:89-113. -/
def tariffCounterSchema : SchemaDef where
  fields := [
    (.number, .integer, false),
    (.id, .integer, false),
    (.address_in_actual_values, .integer, false),
    (.address_in_data_archive_record, .integer, false),
    (.bit_control, .integer, false),
    (.in_data_archive, .boolean, false),
    (.in_daily_archive, .boolean, false),
    (.in_monthly_archive, .boolean, false),
    (.in_factory_archive, .boolean, false),
    (.is_metrological_quantity, .boolean, false),
    (.name, .string, false),
    (.unit, .string, false),
    (.digit, .float, false),
    (.number_of_primary_counter, .integer, false),
    (.tariff, .integer, false),
    (.address_in_daily_archive_record, .integer, false),
    (.address_in_monthly_archive_record, .integer, false),
    (.address_in_billing_archive_record, .integer, false),
    (.decimals, .integer, true)]
  postLoad := some .TariffCounter

/-- `DoubleTariffCounterSchema` elgas/parameters/tariff_counter.py:123-126 (fields of `TariffCounterSchema`, tariff_counter.py:89-113). -/
def doubleTariffCounterSchema : SchemaDef where
  fields := [
    (.number, .integer, false),
    (.id, .integer, false),
    (.address_in_actual_values, .integer, false),
    (.address_in_data_archive_record, .integer, false),
    (.bit_control, .integer, false),
    (.in_data_archive, .boolean, false),
    (.in_daily_archive, .boolean, false),
    (.in_monthly_archive, .boolean, false),
    (.in_factory_archive, .boolean, false),
    (.is_metrological_quantity, .boolean, false),
    (.name, .string, false),
    (.unit, .string, false),
    (.digit, .float, false),
    (.number_of_primary_counter, .integer, false),
    (.tariff, .integer, false),
    (.address_in_daily_archive_record, .integer, false),
    (.address_in_monthly_archive_record, .integer, false),
    (.address_in_billing_archive_record, .integer, false),
    (.decimals, .integer, true)]
  postLoad := some .DoubleTariffCounter

/-- `BaseTariffCounterSchema` elgas/parameters/tariff_counter.py:203-226. -/
def baseTariffCounterSchema : SchemaDef where
  fields := [
    (.number, .integer, false),
    (.id, .integer, false),
    (.address_in_actual_values, .integer, false),
    (.address_in_data_archive_record, .integer, false),
    (.bit_control, .integer, false),
    (.in_data_archive, .boolean, false),
    (.in_daily_archive, .boolean, false),
    (.in_monthly_archive, .boolean, false),
    (.in_factory_archive, .boolean, false),
    (.is_metrological_quantity, .boolean, false),
    (.name, .string, false),
    (.unit, .string, false),
    (.number_of_base_counter, .integer, false),
    (.tariff, .integer, false),
    (.address_in_daily_archive_record, .integer, false),
    (.address_in_monthly_archive_record, .integer, false),
    (.address_in_billing_archive_record, .integer, false),
    (.decimals, .integer, true)]
  postLoad := some .BaseTariffCounter

/-- `DifferenceCounterSchema` elgas/parameters/difference_counter.py:93-116. -/
def differenceCounterSchema : SchemaDef where
  fields := [
    (.number, .integer, false),
    (.id, .integer, false),
    (.address_in_actual_values, .integer, false),
    (.address_in_data_archive_record, .integer, false),
    (.bit_control, .integer, false),
    (.in_data_archive, .boolean, false),
    (.in_daily_archive, .boolean, false),
    (.in_monthly_archive, .boolean, false),
    (.is_double, .boolean, false),
    (.is_metrological_quantity, .boolean, false),
    (.name, .string, false),
    (.unit, .string, false),
    (.digit, .floatStr, false),
    (.number_of_primary_counter, .integer, false),
    (.address_in_daily_archive_record, .integer, false),
    (.address_in_monthly_archive_record, .integer, false),
    (.address_in_billing_archive_record, .integer, false),
    (.decimals, .integer, true)]
  postLoad := some .DifferenceCounter

/-- `DifferenceBaseCounterSchema` elgas/parameters/difference_counter.py:119-122 (fields of `DifferenceCounterSchema`, difference_counter.py:93-116). -/
def differenceBaseCounterSchema : SchemaDef where
  fields := [
    (.number, .integer, false),
    (.id, .integer, false),
    (.address_in_actual_values, .integer, false),
    (.address_in_data_archive_record, .integer, false),
    (.bit_control, .integer, false),
    (.in_data_archive, .boolean, false),
    (.in_daily_archive, .boolean, false),
    (.in_monthly_archive, .boolean, false),
    (.is_double, .boolean, false),
    (.is_metrological_quantity, .boolean, false),
    (.name, .string, false),
    (.unit, .string, false),
    (.digit, .floatStr, false),
    (.number_of_primary_counter, .integer, false),
    (.address_in_daily_archive_record, .integer, false),
    (.address_in_monthly_archive_record, .integer, false),
    (.address_in_billing_archive_record, .integer, false),
    (.decimals, .integer, true)]
  postLoad := some .DifferenceBaseCounter

/-- `TimerSchema` elgas/parameters/timer.py:65-82. -/
def timerSchema : SchemaDef where
  fields := [
    (.number, .integer, false),
    (.id, .integer, false),
    (.address_in_actual_values, .integer, false),
    (.address_in_data_archive_record, .integer, false),
    (.bit_control, .integer, false),
    (.in_data_archive, .integer, false),
    (.in_daily_archive, .integer, false),
    (.in_monthly_archive, .integer, false),
    (.is_metrological_quantity, .integer, false),
    (.name, .string, false),
    (.address_in_daily_archive_record, .integer, false),
    (.address_in_monthly_archive_record, .integer, false)]
  postLoad := some .Timer

/-- `DeviceErrorSchema` elgas/parameters/device_error.py:72-93. -/
def deviceErrorSchema : SchemaDef where
  fields := [
    (.number, .integer, false),
    (.id, .integer, false),
    (.bit_order_in_actual_values, .integer, false),
    (.bit_order_in_data_archive_record, .integer, false),
    (.bit_order_in_binary_archive_record, .integer, false),
    (.bit_control, .integer, false),
    (.in_binary_archive, .boolean, false),
    (.in_data_archive, .boolean, false),
    (.name, .string, false),
    (.error_bit_order_in_actual_values, .integer, false),
    (.error_bit_order_in_binary_archive_record, .integer, false),
    (.error_bit_order_in_data_archive_record, .integer, false),
    (.action_during_change, .integer, true),
    (.text_log_0, .integer, true),
    (.text_log_1, .integer, true)]
  postLoad := some .DeviceError

/-- `SumOfAlarmsSchema` elgas/parameters/sum_of_alarms.py:72-92. -/
def sumOfAlarmsSchema : SchemaDef where
  fields := [
    (.number, .integer, false),
    (.id, .integer, false),
    (.bit_order_in_actual_values, .integer, false),
    (.bit_order_in_data_archive_record, .integer, false),
    (.bit_order_in_binary_archive_record, .integer, false),
    (.bit_control, .integer, false),
    (.in_binary_archive, .boolean, false),
    (.in_data_archive, .boolean, false),
    (.name, .string, false),
    (.error_bit_order_in_actual_values, .integer, false),
    (.error_bit_order_in_binary_archive_record, .integer, false),
    (.error_bit_order_in_data_archive_record, .integer, false),
    (.action_during_change, .integer, true),
    (.text_log_0, .string, true),
    (.text_log_1, .string, true)]
  postLoad := some .SumOfAlarms

/-- `AnalogStatisticsSchema` elgas/parameters/statistics.py:83-106. -/
def analogStatisticsSchema : SchemaDef where
  fields := [
    (.number, .integer, false),
    (.id, .integer, false),
    (.address_in_actual_values, .integer, false),
    (.address_in_data_archive_record, .integer, false),
    (.bit_control, .integer, false),
    (.in_data_archive, .boolean, false),
    (.in_daily_archive, .boolean, false),
    (.in_monthly_archive, .boolean, false),
    (.is_metrological_quantity, .boolean, false),
    (.name, .string, false),
    (.unit, .string, false),
    (.digit, .floatStr, false),
    (.offset, .floatStr, false),
    (.number_of_primary_quantity, .integer, false),
    (.statistics_type, .integer, false),
    (.address_in_daily_archive_record, .integer, false),
    (.address_in_monthly_archive_record, .integer, false),
    (.decimals, .integer, true)]
  postLoad := some .AnalogStatistics

/-- `StatisticsSchema` elgas/parameters/statistics.py:113-116 (fields of `AnalogStatisticsSchema`, statistics.py:83-106). -/
def statisticsSchema : SchemaDef where
  fields := [
    (.number, .integer, false),
    (.id, .integer, false),
    (.address_in_actual_values, .integer, false),
    (.address_in_data_archive_record, .integer, false),
    (.bit_control, .integer, false),
    (.in_data_archive, .boolean, false),
    (.in_daily_archive, .boolean, false),
    (.in_monthly_archive, .boolean, false),
    (.is_metrological_quantity, .boolean, false),
    (.name, .string, false),
    (.unit, .string, false),
    (.digit, .floatStr, false),
    (.offset, .floatStr, false),
    (.number_of_primary_quantity, .integer, false),
    (.statistics_type, .integer, false),
    (.address_in_daily_archive_record, .integer, false),
    (.address_in_monthly_archive_record, .integer, false),
    (.decimals, .integer, true)]
  postLoad := some .Statistics

/-- `AnalogTimeStatisticsSchema` elgas/parameters/statistics.py:125-128 (fields of `AnalogStatisticsSchema`, statistics.py:83-106). -/
def analogTimeStatisticsSchema : SchemaDef where
  fields := [
    (.number, .integer, false),
    (.id, .integer, false),
    (.address_in_actual_values, .integer, false),
    (.address_in_data_archive_record, .integer, false),
    (.bit_control, .integer, false),
    (.in_data_archive, .boolean, false),
    (.in_daily_archive, .boolean, false),
    (.in_monthly_archive, .boolean, false),
    (.is_metrological_quantity, .boolean, false),
    (.name, .string, false),
    (.unit, .string, false),
    (.digit, .floatStr, false),
    (.offset, .floatStr, false),
    (.number_of_primary_quantity, .integer, false),
    (.statistics_type, .integer, false),
    (.address_in_daily_archive_record, .integer, false),
    (.address_in_monthly_archive_record, .integer, false),
    (.decimals, .integer, true)]
  postLoad := some .AnalogTimeStatistics

/-- `TimeStatisticsSchema` elgas/parameters/statistics.py:135-138 (fields of `AnalogStatisticsSchema`, statistics.py:83-106). -/
def timeStatisticsSchema : SchemaDef where
  fields := [
    (.number, .integer, false),
    (.id, .integer, false),
    (.address_in_actual_values, .integer, false),
    (.address_in_data_archive_record, .integer, false),
    (.bit_control, .integer, false),
    (.in_data_archive, .boolean, false),
    (.in_daily_archive, .boolean, false),
    (.in_monthly_archive, .boolean, false),
    (.is_metrological_quantity, .boolean, false),
    (.name, .string, false),
    (.unit, .string, false),
    (.digit, .floatStr, false),
    (.offset, .floatStr, false),
    (.number_of_primary_quantity, .integer, false),
    (.statistics_type, .integer, false),
    (.address_in_daily_archive_record, .integer, false),
    (.address_in_monthly_archive_record, .integer, false),
    (.decimals, .integer, true)]
  postLoad := some .TimeStatistics

/-- `CounterStatisticsSchema` elgas/parameters/statistics.py:213-235. -/
def counterStatisticsSchema : SchemaDef where
  fields := [
    (.number, .integer, false),
    (.id, .integer, false),
    (.address_in_actual_values, .integer, false),
    (.address_in_data_archive_record, .integer, false),
    (.bit_control, .integer, false),
    (.in_data_archive, .boolean, false),
    (.in_daily_archive, .boolean, false),
    (.in_monthly_archive, .boolean, false),
    (.is_metrological_quantity, .boolean, false),
    (.name, .string, false),
    (.unit, .string, false),
    (.digit, .floatStr, false),
    (.type_of_primary_quantity, .integer, false),
    (.number_of_primary_quantity, .integer, false),
    (.statistics_type, .integer, false),
    (.address_in_daily_archive_record, .integer, false),
    (.address_in_monthly_archive_record, .integer, false)]
  postLoad := some .CounterStatistics

/-- `StandardCounterStatisticsSchema` elgas/parameters/statistics.py:238-241 (fields of `CounterStatisticsSchema`, statistics.py:213-235). -/
def standardCounterStatisticsSchema : SchemaDef where
  fields := [
    (.number, .integer, false),
    (.id, .integer, false),
    (.address_in_actual_values, .integer, false),
    (.address_in_data_archive_record, .integer, false),
    (.bit_control, .integer, false),
    (.in_data_archive, .boolean, false),
    (.in_daily_archive, .boolean, false),
    (.in_monthly_archive, .boolean, false),
    (.is_metrological_quantity, .boolean, false),
    (.name, .string, false),
    (.unit, .string, false),
    (.digit, .floatStr, false),
    (.type_of_primary_quantity, .integer, false),
    (.number_of_primary_quantity, .integer, false),
    (.statistics_type, .integer, false),
    (.address_in_daily_archive_record, .integer, false),
    (.address_in_monthly_archive_record, .integer, false)]
  postLoad := some .StandardCounterStatistics

/-- `ModemSchema` elgas/parameters/modem.py:93-118. -/
def modemSchema : SchemaDef where
  fields := [
    (.number, .integer, false),
    (.bit_control_0, .integer, false),
    (.title, .string, false),
    (.modem_type, .integer, false),
    (.initialization, .string, false),
    (.call_to_dispatching, .string, false),
    (.modem_hang_up, .string, false),
    (.special_initialization, .string, false),
    (.ip_address_for_registration_and_diagnostics, .string, false),
    (.ip_address_for_calling_to_dispatching, .string, false),
    (.registration_send_period, .integer, false),
    (.authentication_mode, .integer, false),
    (.port_for_registration, .integer, false),
    (.port_for_calling_to_dispatching, .integer, false),
    (.sms_call, .string, false),
    (.gprs_user_name, .string, false),
    (.gprs_password, .string, false),
    (.ip_address_for_ping, .string, false),
    (.ping_period, .integer, false),
    (.transition_into_command_mode, .string, false),
    (.pin, .string, false),
    (.owner_sim_number, .string, true)]
  postLoad := none

/-- `ParameterSchemaFactory.object_map` elgas/parameters/factory.py:132-168. -/
def schemaMap : ObjType → Option SchemaDef
  | .SYSTEM_PARAMETER => some systemParametersSchema
  | .ANALOG_MEASURAND => some analogQuantitySchema
  | .BINARY => some binarySchema
  | .COUNTER => some counterSchema
  | .STANDARD_COUNTER => some standardCounterSchema
  | .FLOW_RATE => some flowRateSchema
  | .STANDARD_FLOW_RATE => some standardFlowRateSchema
  | .CONVERSION_COEFFICIENT => some conversionCoefficientSchema
  | .ERROR_COUNTER => some errorCounterSchema
  | .ERROR_STANDARD_COUNTER => some errorStandardCounterSchema
  | .COMPRESSIBILITY => some compressibilitySchema
  | .TIME_WINDOW => some timeWindowSchema
  | .DOUBLE_COUNTER => some doubleCounterSchema
  | .DOUBLE_ERROR_COUNTER => some doubleErrorCounterSchema
  | .DIAGNOSTICS => some diagnosticsSchema
  | .SET_POINT => some setPointSchema
  | .COMPRESSIBILITY_Z => some compressibilityZSchema
  | .COMPRESSIBILITY_Z_BASE => some compressibilityZBaseSchema
  | .ENERGY => some energySchema
  | .ERROR_ENERGY => some errorEnergySchema
  | .TARIFF_COUNTER => some tariffCounterSchema
  | .DOUBLE_TARIFF_COUNTER => some doubleTariffCounterSchema
  | .BASE_TARIFF_COUNTER => some baseTariffCounterSchema
  | .DIFFERENCE_COUNTER => some differenceCounterSchema
  | .DIFFERENCE_BASE_COUNTER => some differenceBaseCounterSchema
  | .TIMER => some timerSchema
  | .DEVICE_ERROR => some deviceErrorSchema
  | .SUM_OF_ALARMS => some sumOfAlarmsSchema
  | .ANALOG_STATISTICS => some analogStatisticsSchema
  | .STATISTICS => some statisticsSchema
  | .ANALOG_TIME_STATISTICS => some analogTimeStatisticsSchema
  | .TIME_STATISTICS => some timeStatisticsSchema
  | .COUNTER_STATISTICS => some counterStatisticsSchema
  | .STANDARD_COUNTER_STATISTICS => some standardCounterStatisticsSchema
  | .MODEM => some modemSchema
  | _ => none

end Elgas
