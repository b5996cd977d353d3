import Verif.Py.Dict

/-
Specification layer: the keys that occur in the tree `get_json` returns.
-/

namespace Verif.Spec

/-- The names of extra blocks. -/
def sectionNames : List String :=
  [ "CONSOLE_PROPERTIES_BLOCK", "CONSOLE_CODEPAGE_BLOCK", "DISTRIBUTED_LINK_TRACKER_BLOCK",
    "ENVIRONMENTAL_VARIABLES_LOCATION_BLOCK", "ICON_LOCATION_BLOCK", "METADATA_PROPERTIES_BLOCK",
    "KNOWN_FOLDER_LOCATION_BLOCK", "SHIM_LAYER_BLOCK", "SPECIAL_FOLDER_LOCATION_BLOCK", "DARWIN_BLOCK",
    "SHELL_ITEM_IDENTIFIER_BLOCK", "TERMINAL_BLOCK", "UNKNOWN_BLOCK" ]

/-- The sections of the tree. -/
def topKeys : List String := ["size", "header", "target", "link_info", "data", "extra"]

/-- The keys of the header. -/
def headerKeys : List String :=
  ["guid", "r_link_flags", "r_file_flags", "creation_time", "accessed_time", "modified_time", "file_size", "icon_index",
    "windowstyle", "hotkey", "r_hotkey", "link_flags", "file_flags", "header_size", "reserved0", "reserved1", "reserved2"]

/-- The kinds of dictionaries in the other sections: all keys they can have, in order. -/
def schemas : List (List String) :=
  [ ["size", "items", "index"],
    -- items of an ID list
    ["class", "signature", "cpl_file_path", "name", "comments"],
    ["class", "category_id", "category"],
    ["class", "sort_index", "sort_index_value", "guid"],
    ["class", "flags", "volume_name"],
    ["class", "flags", "volume_identifier"],
    ["class", "flags", "file_size", "modification_time", "file_attribute_flags", "primary_name"],
    ["class", "flags", "content_flags", "location", "description", "comments"],
    ["class", "item_identifier"],
    ["class", "signature", "file_entry", "delegate_class_id", "delegate_folder_id"],
    ["class", "size"],
    -- link info
    ["link_info_size", "link_info_header_size", "link_info_flags", "volume_id_offset", "local_base_path_offset",
      "common_network_relative_link_offset", "common_path_suffix_offset", "local_base_path", "common_path_suffix",
      "local_base_path_offset_unicode", "local_base_path_unicode", "common_path_suffix_offset_unicode",
      "common_path_suffix_unicode", "location_info", "location"],
    ["volume_id_size", "r_drive_type", "volume_label_offset", "drive_serial_number", "drive_type", "volume_label",
      "volume_label_unicode_offset", "volume_label_unicode"],
    ["common_network_relative_link_size", "common_network_relative_link_flags", "net_name_offset", "device_name_offset",
      "r_network_provider_type", "network_provider_type", "net_name_offset_unicode", "net_name_unicode",
      "device_name_offset_unicode", "device_name_unicode", "net_name", "device_name"],
    ["description", "relative_path", "working_directory", "command_line_arguments", "icon_location"],
    -- extra blocks
    ["size", "code_page"],
    ["size", "special_folder_id", "offset"],
    ["size", "known_folder_id", "offset"],
    ["size", "target_ansi", "target_unicode"],
    ["size", "layer_name"],
    ["size", "extra_data_sha256"],
    ["size", "appended_data_sha256"],
    ["size", "fill_attributes", "popup_fill_attributes", "screen_buffer_size_x", "screen_buffer_size_y", "window_size_x",
      "window_size_y", "window_origin_x", "window_origin_y", "font_size", "font_family", "font_weight", "face_name",
      "cursor_size", "full_screen", "quick_edit", "insert_mode", "auto_position", "history_buffer_size",
      "number_of_history_buffers", "history_no_dup", "color_table"],
    ["size", "length", "version", "machine_identifier", "droid_volume_identifier", "droid_file_identifier",
      "birth_droid_volume_identifier", "birth_droid_file_identifier"],
    ["size", "darwin_data_ansi", "darwin_data_unicode", "product_code_id", "feature_name", "component_id"],
    ["size", "id_list"],
    ["size", "property_store"],
    ["storage_size", "version", "format_id", "serialized_property_values"],
    ["value_size", "id", "value", "value_type"],
    ["value_size", "name_size", "name", "value", "value_type"] ]

/-- The keys of a dictionary are some of a documented kind, in the documented order; or block names, each at most once. -/
def DocumentedKeys (keys : List String) : Prop :=
  (∃ s ∈ schemas, keys.Sublist s) ∨ (keys.Nodup ∧ ∀ k ∈ keys, k ∈ sectionNames)

mutual
/-- A tree all of whose dictionaries have documented keys, and texts under `class`. -/
def Documented : PyVal → Prop
  | .list l => DocumentedList l
  | .dict d => DocumentedKeys (d.map Prod.fst) ∧ DocumentedEntries d
  | _ => True
/-- The elements of a list. -/
def DocumentedList : List PyVal → Prop
  | [] => True
  | v :: l => Documented v ∧ DocumentedList l
/-- The values of a dictionary. -/
def DocumentedEntries : List (String × PyVal) → Prop
  | [] => True
  | (k, v) :: d => Documented v ∧ (k = "class" → ∃ s, v = .str s) ∧ DocumentedEntries d
end

/-- A tree with the documented sections: a header, and other sections with documented dictionaries at any depth. -/
def DocumentedFile (j : Dict) : Prop :=
  (j.map Prod.fst).Sublist topKeys ∧ (∀ kv ∈ j, kv.1 ≠ "header" → Documented kv.2) ∧
    ∀ v, ("header", v) ∈ j → ∃ h, v = .dict h ∧ (h.map Prod.fst).Sublist headerKeys ∧ ∀ kv ∈ h, Documented kv.2

/-! ### the reduced tree -/

/-- A dictionary without some keys. -/
def without (ks : List String) (d : Dict) : Dict := d.filter fun kv => kv.1 ∉ ks

/-- Change what is under a key. -/
def under (k : String) (g : PyVal → PyVal) (d : Dict) : Dict := d.map fun kv => if kv.1 = k then (kv.1, g kv.2) else kv

/-- Change a dictionary. -/
def onDict (g : Dict → Dict) : PyVal → PyVal
  | .dict d => .dict (g d)
  | v => v

/-- Change the elements of a list. -/
def onList (g : PyVal → PyVal) : PyVal → PyVal
  | .list l => .list (l.map g)
  | v => v

/-- What is left of the tree without the keys meant for the full output. -/
def reduced (j : Dict) : Dict :=
  under "header" (onDict (without ["header_size", "reserved0", "reserved1", "reserved2"]))
    (under "target" (onDict fun t =>
        under "items" (onList (onDict (without ["modification_time"]))) (without ["size", "index"] t))
      (under "link_info" (onDict fun i =>
          under "location_info" (onDict (without ["volume_id_size", "volume_label_offset",
              "common_network_relative_link_size", "net_name_offset", "device_name_offset"]))
            (without ["link_info_size", "link_info_header_size", "volume_id_offset", "local_base_path_offset",
              "common_network_relative_link_offset", "common_path_suffix_offset"] i))
        j))

end Verif.Spec
