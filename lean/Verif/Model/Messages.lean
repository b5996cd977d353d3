import Verif.Py.Fmt

/-
The texts given to `warnings.warn`.
-/

namespace Verif

/-- What of a message is not part of `Warn`: the text of the exception it quotes (not modelled), and which of two places issues the
message about an item. -/
structure Quote where
  exc : Str
  inBlock : Bool

/-- `"%s" % v`. -/
def MustVal.text : MustVal → Str
  | .int n => decStr n
  | .str s => s

/-- `b.hex(" ")`. -/
def bytesHexSep : Bytes → Str
  | [] => []
  | [b] => byteHex b
  | b :: bs => byteHex b ++ ' ' :: bytesHexSep bs

namespace Warn

/-- The message.  Models decorators.py:17, utils.py:101-108 and 159-166 (Python 3.8 or later), text_processor.py:29 and 55,
target_factory.py:41-45, target/lnk_target_base.py:54-58, target/root_folder.py:44-48, target/control_panel_category.py:56-60,
lnk_targets.py:91, extra/shell_item.py:63, info_factory.py:46, string_data.py:59, extra_data.py:35 and 67, extra_factory.py:64. -/
def text (q : Quote) : Warn → Str
  | .mustBe func expected got =>
    func.toList ++ " must be ".toList ++ expected.text ++ ": ".toList ++ got.text
  | .invalidFiletime b => "Invalid filetime: ".toList ++ bytesHexSep b
  | .invalidDostime b => "Invalid dostime: ".toList ++ bytesHexSep b
  | .decode s => "Error while decoding string `".toList ++ s ++ "` (".toList ++ q.exc ++ ")".toList
  | .itemType t =>
    "Not implemented item_type 0x".toList ++ fmtX 2 t ++ " in TargetFactory.SHELL_ITEM_CLASSES. ".toList ++
      "Use fallback value: <class 'LnkParse3.target.unknown.Unknown'>.".toList
  | .itemFlags f =>
    "Not implemented flags 0x".toList ++ fmtX 2 f ++ " in LnkTargetBase.SHELL_ITEM_SHELL_FS_FOLDER. ".toList ++
      "Use fallback value: \"Unknown\".".toList
  | .sortIndex v =>
    "Not implemented sort_index_value ".toList ++ fmtX 2 v ++ " in RootFolder.SORT_INDEX. ".toList ++
      "Use fallback value: \"Unknown\".".toList
  | .category c =>
    "Not implemented category_id ".toList ++ decStr c ++ " in ControlPanelCategory.CATEGORIES. ".toList ++
      "Use fallback value: \"Unknown\".".toList
  | .targetKey name =>
    (if q.inBlock then "Error while parsing extra TargetID `" else "Error while parsing TargetID `").toList ++ name.toList ++
      "` (KeyError ".toList ++ q.exc ++ ")".toList
  | .infoClass => "Error while selecting proper Info class: ".toList ++ q.exc
  | .stringData => "Error while parsing String data: ".toList ++ q.exc
  | .extraSize => "Error while parsing extra data: ".toList ++ q.exc
  | .extraSignature => "Error while parsing extra's signature ".toList ++ q.exc
  | .extraBlock name _ => "Error while parsing `".toList ++ name.toList ++ "` (".toList ++ q.exc ++ ")".toList

end Warn

end Verif
