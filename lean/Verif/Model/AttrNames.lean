import Verif.Model.ParamNames
/-!
The attribute names of elgas/parameters/*.py as the dictionary keys that `Schema.dump` writes.
Written by tools/gen_attr_names.py.
-/
namespace Elgas

/-- Key of an attribute (the name of the schema field, the same in class and schema).
Attribute names of parameters/*.py. -/
def Attr.key : Attr → String
  | .device_type => "device_type"
  | .serial_number => "serial_number"
  | .firmware_version => "firmware_version"
  | .service_version => "service_version"
  | .certification_variant => "certification_variant"
  | .station_id => "station_id"
  | .data_access => "data_access"
  | .password_for_full_access_active => "password_for_full_access_active"
  | .password_for_reading_is_on => "password_for_reading_is_on"
  | .metrological_switch => "metrological_switch"
  | .user_switch => "user_switch"
  | .switch_function => "switch_function"
  | .parameter_crc => "parameter_crc"
  | .measuring_period => "measuring_period"
  | .archiving_period => "archiving_period"
  | .base_pressure => "base_pressure"
  | .base_temperature => "base_temperature"
  | .compressibility_formula => "compressibility_formula"
  | .gas_composition => "gas_composition"
  | .data_archive_record_length => "data_archive_record_length"
  | .binary_archive_record_length => "binary_archive_record_length"
  | .daily_archive_record_length => "daily_archive_record_length"
  | .monthly_archive_record_length => "monthly_archive_record_length"
  | .instantaneous_values_error_bit_order => "instantaneous_values_error_bit_order"
  | .binary_archive_record_error_bit_order => "binary_archive_record_error_bit_order"
  | .data_archive_record_error_bit_order => "data_archive_record_error_bit_order"
  | .optical_port_speed => "optical_port_speed"
  | .optical_port_protocol => "optical_port_protocol"
  | .optical_port_bit_control => "optical_port_bit_control"
  | .communication_port_0_speed => "communication_port_0_speed"
  | .communication_port_0_protocol => "communication_port_0_protocol"
  | .communication_port_0_bit_control => "communication_port_0_bit_control"
  | .communication_port_1_speed => "communication_port_1_speed"
  | .communication_port_1_protocol => "communication_port_1_protocol"
  | .communication_port_1_bit_control => "communication_port_1_bit_control"
  | .communication_port_2_speed => "communication_port_2_speed"
  | .communication_port_2_protocol => "communication_port_2_protocol"
  | .communication_port_2_bit_control => "communication_port_2_bit_control"
  | .gas_hour => "gas_hour"
  | .fixed_barometric_pressure => "fixed_barometric_pressure"
  | .altitude => "altitude"
  | .status_archive_record_length => "status_archive_record_length"
  | .pressure_unit_type => "pressure_unit_type"
  | .pressure_unit_text => "pressure_unit_text"
  | .temperature_unit_type => "temperature_unit_type"
  | .temperature_unit_text => "temperature_unit_text"
  | .altitude_unit_type => "altitude_unit_type"
  | .altitude_unit_text => "altitude_unit_text"
  | .gross_calorific_value_type => "gross_calorific_value_type"
  | .gross_calorific_value_text => "gross_calorific_value_text"
  | .dst_region => "dst_region"
  | .gmt_hour_shift => "gmt_hour_shift"
  | .billing_archive_record_length => "billing_archive_record_length"
  | .conditions_for_combustion_heat => "conditions_for_combustion_heat"
  | .device_variant => "device_variant"
  | .underscore => "_"
  | .bit_control => "bit_control"
  | .corrected_volume_counters_amount => "corrected_volume_counters_amount"
  | .device_features_bits => "device_features_bits"
  | .device_features => "device_features"
  | .version_metrological_part => "version_metrological_part"
  | .metrological_crc => "metrological_crc"
  | .metrological_crc_32 => "metrological_crc_32"
  | .application_crc_32 => "application_crc_32"
  | .archive_period => "archive_period"
  | .gas_day_hour => "gas_day_hour"
  | .places_for_corrected_volume_counters => "places_for_corrected_volume_counters"
  | .number => "number"
  | .id => "id"
  | .address_in_actual_values => "address_in_actual_values"
  | .address_in_data_archive_record => "address_in_data_archive_record"
  | .in_data_archive => "in_data_archive"
  | .in_daily_archive => "in_daily_archive"
  | .in_monthly_archive => "in_monthly_archive"
  | .is_metrological_quantity => "is_metrological_quantity"
  | .in_fast_archive_1 => "in_fast_archive_1"
  | .in_fast_archvie_2 => "in_fast_archvie_2"
  | .name => "name"
  | .unit => "unit"
  | .digit => "digit"
  | .offset => "offset"
  | .lower_limit_measuring_range => "lower_limit_measuring_range"
  | .upper_limit_measuring_range => "upper_limit_measuring_range"
  | .serial_number_transducer => "serial_number_transducer"
  | .error_bit_order_in_actual_values => "error_bit_order_in_actual_values"
  | .error_bit_order_in_binary_archive => "error_bit_order_in_binary_archive"
  | .error_bit_order_in_data_archive => "error_bit_order_in_data_archive"
  | .address_in_daily_archive_record => "address_in_daily_archive_record"
  | .address_in_monthly_archive_record => "address_in_monthly_archive_record"
  | .samples_in_fast_archive => "samples_in_fast_archive"
  | .decimals => "decimals"
  | .bit_order_in_actual_values => "bit_order_in_actual_values"
  | .bit_order_in_data_archive_record => "bit_order_in_data_archive_record"
  | .bit_order_in_binary_archive_record => "bit_order_in_binary_archive_record"
  | .in_binary_archive => "in_binary_archive"
  | .active_indicator => "active_indicator"
  | .error_bit_order_in_binary_archive_record => "error_bit_order_in_binary_archive_record"
  | .error_bit_order_in_data_archive_record => "error_bit_order_in_data_archive_record"
  | .action_during_change => "action_during_change"
  | .text_log_0 => "text_log_0"
  | .text_log_1 => "text_log_1"
  | .in_factory_archive => "in_factory_archive"
  | .accept_counting_direction => "accept_counting_direction"
  | .serial_number_of_gas_meter => "serial_number_of_gas_meter"
  | .address_in_billing_archive_record => "address_in_billing_archive_record"
  | .serial_number_of_gas_meter_text => "serial_number_of_gas_meter_text"
  | .number_of_primary_counter => "number_of_primary_counter"
  | .number_of_conversion => "number_of_conversion"
  | .number_of_primary_flow_rate => "number_of_primary_flow_rate"
  | .number_of_analog_pressure => "number_of_analog_pressure"
  | .number_of_analog_temperature => "number_of_analog_temperature"
  | .compressibility_calculation_method => "compressibility_calculation_method"
  | .default_value_pressure => "default_value_pressure"
  | .default_value_temperature => "default_value_temperature"
  | .alternate_value_of_compressibility => "alternate_value_of_compressibility"
  | .number_of_standard_counter => "number_of_standard_counter"
  | .number_of_conversion_coefficient => "number_of_conversion_coefficient"
  | .rows_in_window => "rows_in_window"
  | .rows => "rows"
  | .mask_1_of_status_archive => "mask_1_of_status_archive"
  | .mask_2_of_status_archive => "mask_2_of_status_archive"
  | .mask_1_of_alarm => "mask_1_of_alarm"
  | .mask_2_of_alarm => "mask_2_of_alarm"
  | .mask_1_of_calling_to_dispatching => "mask_1_of_calling_to_dispatching"
  | .mask_2_of_calling_to_dispatching => "mask_2_of_calling_to_dispatching"
  | .value_of_limit => "value_of_limit"
  | .type_of_primary_quantity => "type_of_primary_quantity"
  | .number_of_primary_quantity => "number_of_primary_quantity"
  | .number_of_calorific_value => "number_of_calorific_value"
  | .tariff => "tariff"
  | .number_of_base_counter => "number_of_base_counter"
  | .is_double => "is_double"
  | .statistics_type => "statistics_type"
  | .bit_control_0 => "bit_control_0"
  | .title => "title"
  | .modem_type => "modem_type"
  | .initialization => "initialization"
  | .call_to_dispatching => "call_to_dispatching"
  | .modem_hang_up => "modem_hang_up"
  | .special_initialization => "special_initialization"
  | .ip_address_for_registration_and_diagnostics => "ip_address_for_registration_and_diagnostics"
  | .ip_address_for_calling_to_dispatching => "ip_address_for_calling_to_dispatching"
  | .registration_send_period => "registration_send_period"
  | .authentication_mode => "authentication_mode"
  | .port_for_registration => "port_for_registration"
  | .port_for_calling_to_dispatching => "port_for_calling_to_dispatching"
  | .sms_call => "sms_call"
  | .gprs_user_name => "gprs_user_name"
  | .gprs_password => "gprs_password"
  | .ip_address_for_ping => "ip_address_for_ping"
  | .ping_period => "ping_period"
  | .transition_into_command_mode => "transition_into_command_mode"
  | .pin => "pin"
  | .owner_sim_number => "owner_sim_number"

/-- All members. Attribute names of parameters/*.py. -/
def Attr.all : List Attr :=
  [.device_type,
   .serial_number,
   .firmware_version,
   .service_version,
   .certification_variant,
   .station_id,
   .data_access,
   .password_for_full_access_active,
   .password_for_reading_is_on,
   .metrological_switch,
   .user_switch,
   .switch_function,
   .parameter_crc,
   .measuring_period,
   .archiving_period,
   .base_pressure,
   .base_temperature,
   .compressibility_formula,
   .gas_composition,
   .data_archive_record_length,
   .binary_archive_record_length,
   .daily_archive_record_length,
   .monthly_archive_record_length,
   .instantaneous_values_error_bit_order,
   .binary_archive_record_error_bit_order,
   .data_archive_record_error_bit_order,
   .optical_port_speed,
   .optical_port_protocol,
   .optical_port_bit_control,
   .communication_port_0_speed,
   .communication_port_0_protocol,
   .communication_port_0_bit_control,
   .communication_port_1_speed,
   .communication_port_1_protocol,
   .communication_port_1_bit_control,
   .communication_port_2_speed,
   .communication_port_2_protocol,
   .communication_port_2_bit_control,
   .gas_hour,
   .fixed_barometric_pressure,
   .altitude,
   .status_archive_record_length,
   .pressure_unit_type,
   .pressure_unit_text,
   .temperature_unit_type,
   .temperature_unit_text,
   .altitude_unit_type,
   .altitude_unit_text,
   .gross_calorific_value_type,
   .gross_calorific_value_text,
   .dst_region,
   .gmt_hour_shift,
   .billing_archive_record_length,
   .conditions_for_combustion_heat,
   .device_variant,
   .underscore,
   .bit_control,
   .corrected_volume_counters_amount,
   .device_features_bits,
   .device_features,
   .version_metrological_part,
   .metrological_crc,
   .metrological_crc_32,
   .application_crc_32,
   .archive_period,
   .gas_day_hour,
   .places_for_corrected_volume_counters,
   .number,
   .id,
   .address_in_actual_values,
   .address_in_data_archive_record,
   .in_data_archive,
   .in_daily_archive,
   .in_monthly_archive,
   .is_metrological_quantity,
   .in_fast_archive_1,
   .in_fast_archvie_2,
   .name,
   .unit,
   .digit,
   .offset,
   .lower_limit_measuring_range,
   .upper_limit_measuring_range,
   .serial_number_transducer,
   .error_bit_order_in_actual_values,
   .error_bit_order_in_binary_archive,
   .error_bit_order_in_data_archive,
   .address_in_daily_archive_record,
   .address_in_monthly_archive_record,
   .samples_in_fast_archive,
   .decimals,
   .bit_order_in_actual_values,
   .bit_order_in_data_archive_record,
   .bit_order_in_binary_archive_record,
   .in_binary_archive,
   .active_indicator,
   .error_bit_order_in_binary_archive_record,
   .error_bit_order_in_data_archive_record,
   .action_during_change,
   .text_log_0,
   .text_log_1,
   .in_factory_archive,
   .accept_counting_direction,
   .serial_number_of_gas_meter,
   .address_in_billing_archive_record,
   .serial_number_of_gas_meter_text,
   .number_of_primary_counter,
   .number_of_conversion,
   .number_of_primary_flow_rate,
   .number_of_analog_pressure,
   .number_of_analog_temperature,
   .compressibility_calculation_method,
   .default_value_pressure,
   .default_value_temperature,
   .alternate_value_of_compressibility,
   .number_of_standard_counter,
   .number_of_conversion_coefficient,
   .rows_in_window,
   .rows,
   .mask_1_of_status_archive,
   .mask_2_of_status_archive,
   .mask_1_of_alarm,
   .mask_2_of_alarm,
   .mask_1_of_calling_to_dispatching,
   .mask_2_of_calling_to_dispatching,
   .value_of_limit,
   .type_of_primary_quantity,
   .number_of_primary_quantity,
   .number_of_calorific_value,
   .tariff,
   .number_of_base_counter,
   .is_double,
   .statistics_type,
   .bit_control_0,
   .title,
   .modem_type,
   .initialization,
   .call_to_dispatching,
   .modem_hang_up,
   .special_initialization,
   .ip_address_for_registration_and_diagnostics,
   .ip_address_for_calling_to_dispatching,
   .registration_send_period,
   .authentication_mode,
   .port_for_registration,
   .port_for_calling_to_dispatching,
   .sms_call,
   .gprs_user_name,
   .gprs_password,
   .ip_address_for_ping,
   .ping_period,
   .transition_into_command_mode,
   .pin,
   .owner_sim_number]

theorem Attr.key_inj {a b : Attr} (h : a.key = b.key) : a = b := by
  have mem : ∀ a : Attr, a ∈ Attr.all := by intro a; cases a <;> decide
  have all : ∀ a ∈ Attr.all, Attr.all.find? (fun b => b.key = a.key) = some a := by decide +kernel
  have key := fun a => all a (mem a)
  have h1 := key a
  rw [h, key b] at h1
  exact (Option.some.inj h1).symm

/-- Key of an attribute of a gas composition. gas_composition.py:12-34. -/
def GasAttr.key : GasAttr → String
  | .co2 => "co2"
  | .n2 => "n2"
  | .combustion_heat => "combustion_heat"
  | .relative_density => "relative_density"
  | .h2 => "h2"
  | .h2s => "h2s"
  | .he => "he"
  | .h2o => "h2o"
  | .o2 => "o2"
  | .ar => "ar"
  | .co => "co"
  | .c1h4 => "c1h4"
  | .c2h6 => "c2h6"
  | .c3h8 => "c3h8"
  | .ic4h10 => "ic4h10"
  | .nc4h10 => "nc4h10"
  | .ic5h12 => "ic5h12"
  | .nc5h12 => "nc5h12"
  | .c6h14 => "c6h14"
  | .c7h16 => "c7h16"
  | .c8h18 => "c8h18"
  | .c9h20 => "c9h20"
  | .c10h22 => "c10h22"

/-- All members. gas_composition.py:12-34. -/
def GasAttr.all : List GasAttr :=
  [.co2,
   .n2,
   .combustion_heat,
   .relative_density,
   .h2,
   .h2s,
   .he,
   .h2o,
   .o2,
   .ar,
   .co,
   .c1h4,
   .c2h6,
   .c3h8,
   .ic4h10,
   .nc4h10,
   .ic5h12,
   .nc5h12,
   .c6h14,
   .c7h16,
   .c8h18,
   .c9h20,
   .c10h22]

theorem GasAttr.key_inj {a b : GasAttr} (h : a.key = b.key) : a = b := by
  have mem : ∀ a : GasAttr, a ∈ GasAttr.all := by intro a; cases a <;> decide
  have all : ∀ a ∈ GasAttr.all, GasAttr.all.find? (fun b => b.key = a.key) = some a := by decide +kernel
  have key := fun a => all a (mem a)
  have h1 := key a
  rw [h, key b] at h1
  exact (Option.some.inj h1).symm

end Elgas
