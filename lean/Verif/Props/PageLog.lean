import Verif.Props.CallLog
import Verif.Props.ProgramLog
import Verif.Props.Threads
import Verif.Spec.PageLog
/-! C78 and C91, continued: the records of `read_parameters` about its pages (client.py:86-107). -/
namespace Elgas
open Spec

theorem pageRecords_append (l l' : List Record) : pageRecords (l ++ l') = pageRecords l ++ pageRecords l' :=
  List.filter_append ..

theorem pageRecords_inner {l : List Record} (h : Inner l) : pageRecords l = [] := by
  unfold pageRecords
  rw [List.filter_eq_nil_iff]
  intro r hr
  have := h r hr
  simp only [methodTexts, List.mem_cons, List.not_mem_nil, or_false, not_or] at this
  simp [this]

/-! ### A client -/

theorem readPagesL_pageLog (p : Printing) (tr : PyVal) (C : BlockCipher) (s : Sys) (n : Int) (total : Bytes) :
    PageLog (fun (s : Sys) n => s.exchange C (pageRequest s.password n)) s n (pageRecords (s.readPagesL p tr C n total).1) := by
  have hx : ∀ (s : Sys) (e : Event), pageRecords (s.exchangeL p tr C e).1 = [] :=
    fun s e => pageRecords_inner (inner_exchange p tr C s e)
  have ask : ∀ n : Int, pageRecords [info "Requesting device parameters" [("object_count", .int n)]] =
      [info "Requesting device parameters" [("object_count", .int n)]] := fun n => rfl
  have got : ∀ n : Int, pageRecords [info "Received device parameters" [("object_amount", .int n)]] =
      [info "Received device parameters" [("object_amount", .int n)]] := fun n => rfl
  have more : ∀ n : Int, pageRecords [info "More parameters available" [("next_object_count", .int n)]] =
      [info "More parameters available" [("next_object_count", .int n)]] := fun n => rfl
  fun_induction Sys.readPagesL p tr C s n total with
  | case1 s n total ak l e s' h =>
    have := hx s (pageRequest s.password n)
    unfold pageRequest at this
    rw [h] at this
    rw [pageRecords_append, this, List.append_nil]
    refine .unanswered s n fun r hr => ?_
    rw [← exchangeL_erase p tr] at hr
    unfold pageRequest at hr
    rw [h] at hr; cases hr
  | case2 s n total ak l s' h =>
    have := hx s (pageRequest s.password n)
    unfold pageRequest at this
    rw [h] at this
    rw [pageRecords_append, this, List.append_nil]
    refine .unanswered s n fun r hr => ?_
    rw [← exchangeL_erase p tr] at hr
    unfold pageRequest at hr
    rw [h] at hr; cases hr
  | case3 s n total ak l r s' h l' he =>
    have := hx s (pageRequest s.password n)
    unfold pageRequest at this
    rw [h] at this
    show PageLog (fun (s : Sys) n => s.exchange C (pageRequest s.password n)) s n (pageRecords (ak ++ l ++ _))
    rw [pageRecords_append, pageRecords_append, this, List.append_nil, got, ask]
    refine .last s s' n r ?_ he
    rw [← exchangeL_erase p tr]
    unfold pageRequest
    rw [h]
  | case4 s n total ak l r s' h l' he l'' o hrec ih =>
    have := hx s (pageRequest s.password n)
    unfold pageRequest at this
    rw [h] at this
    rw [hrec] at ih
    show PageLog (fun (s : Sys) n => s.exchange C (pageRequest s.password n)) s n (pageRecords (ak ++ l ++ _ ++ _ ++ _))
    rw [pageRecords_append, pageRecords_append, pageRecords_append, pageRecords_append, this, List.append_nil, got, ask, more]
    refine .more s s' n r _ ?_ (by simpa using he) ih
    rw [← exchangeL_erase p tr]
    unfold pageRequest
    rw [h]
  | case5 s n total ak l ev s' hne h =>
    have := hx s (pageRequest s.password n)
    unfold pageRequest at this
    rw [h] at this
    rw [pageRecords_append, this, List.append_nil]
    refine .unanswered s n fun r hr => ?_
    rw [← exchangeL_erase p tr] at hr
    unfold pageRequest at hr
    rw [h] at hr
    injection hr with hr
    exact hne r hr

/-- C78. What `read_parameters` logs about its pages is what it asks for and what is answered: from which object on each
request asks, how many objects are in each answer, and where the next request begins. -/
theorem C78_pages (p : Printing) (tr : PyVal) (C : BlockCipher) (s : Sys) (n : Int) :
    PageLog (fun (s : Sys) n => s.exchange C (pageRequest s.password n)) s n (pageRecords (callL p tr C s (.readParameters n)).1) := by
  have h := readPagesL_pageLog p tr C s n []
  unfold callL Sys.readParametersL
  dsimp only
  cases hx : s.readPagesL p tr C n [] with
  | mk l o =>
    obtain ⟨o, s'⟩ := o
    rw [hx] at h
    have h0 : pageRecords [info "Reading device parameters" [("read_from", .int n)]] = [] := rfl
    have h1 : ∀ d, pageRecords [debug "Received total parameters data" [("data", .bytes d)]] = [] := fun d => rfl
    cases o with
    | returned d =>
      dsimp only
      rw [pageRecords_append, pageRecords_append, h0, h1, List.append_nil, List.nil_append]
      exact h
    | raised x => dsimp only; rw [pageRecords_append, h0, List.nil_append]; exact h
    | pending => dsimp only; rw [pageRecords_append, h0, List.nil_append]; exact h

/-! ### A program -/

theorem worldPagesL_pageLog (p : Printing) (look : Look) (C : BlockCipher) (s : World) (n : Int) (total : Bytes) :
    PageLog (fun (s : World) n => s.exchange C (pageRequest s.password n)) s n (pageRecords (s.readPagesL p look C n total).1) := by
  have hx : ∀ (s : World) (e : Event), pageRecords (s.exchangeL p look C e).1 = [] :=
    fun s e => pageRecords_inner (exchangeL_inner p look C s e)
  have ask : ∀ n : Int, pageRecords [info "Requesting device parameters" [("object_count", .int n)]] =
      [info "Requesting device parameters" [("object_count", .int n)]] := fun n => rfl
  have got : ∀ n : Int, pageRecords [info "Received device parameters" [("object_amount", .int n)]] =
      [info "Received device parameters" [("object_amount", .int n)]] := fun n => rfl
  have more : ∀ n : Int, pageRecords [info "More parameters available" [("next_object_count", .int n)]] =
      [info "More parameters available" [("next_object_count", .int n)]] := fun n => rfl
  fun_induction World.readPagesL p look C s n total with
  | case1 s n total ak l e s' h =>
    have := hx s (pageRequest s.password n)
    unfold pageRequest at this
    rw [h] at this
    rw [pageRecords_append, this, List.append_nil]
    refine .unanswered s n fun r hr => ?_
    rw [← worldExchangeL_erase p look] at hr
    unfold pageRequest at hr
    rw [h] at hr; cases hr
  | case2 s n total ak l s' h =>
    have := hx s (pageRequest s.password n)
    unfold pageRequest at this
    rw [h] at this
    rw [pageRecords_append, this, List.append_nil]
    refine .unanswered s n fun r hr => ?_
    rw [← worldExchangeL_erase p look] at hr
    unfold pageRequest at hr
    rw [h] at hr; cases hr
  | case3 s n total ak l r s' h l' he =>
    have := hx s (pageRequest s.password n)
    unfold pageRequest at this
    rw [h] at this
    show PageLog (fun (s : World) n => s.exchange C (pageRequest s.password n)) s n (pageRecords (ak ++ l ++ _))
    rw [pageRecords_append, pageRecords_append, this, List.append_nil, got, ask]
    refine .last s s' n r ?_ he
    rw [← worldExchangeL_erase p look]
    unfold pageRequest
    rw [h]
  | case4 s n total ak l r s' h l' he l'' o hrec ih =>
    have := hx s (pageRequest s.password n)
    unfold pageRequest at this
    rw [h] at this
    rw [hrec] at ih
    show PageLog (fun (s : World) n => s.exchange C (pageRequest s.password n)) s n (pageRecords (ak ++ l ++ _ ++ _ ++ _))
    rw [pageRecords_append, pageRecords_append, pageRecords_append, pageRecords_append, this, List.append_nil, got, ask, more]
    refine .more s s' n r _ ?_ (by simpa using he) ih
    rw [← worldExchangeL_erase p look]
    unfold pageRequest
    rw [h]
  | case5 s n total ak l ev s' hne h =>
    have := hx s (pageRequest s.password n)
    unfold pageRequest at this
    rw [h] at this
    rw [pageRecords_append, this, List.append_nil]
    refine .unanswered s n fun r hr => ?_
    rw [← worldExchangeL_erase p look] at hr
    unfold pageRequest at hr
    rw [h] at hr
    injection hr with hr
    exact hne r hr

/-- C91. What `read_parameters` in a program logs about its pages is what it asks for and what is answered: from which object on each
request asks, how many objects are in each answer, and where the next request begins. -/
theorem C91_pages (p : Printing) (look : Look) (C : BlockCipher) (w : World) (n : Int) :
    PageLog (fun (s : World) n => s.exchange C (pageRequest s.password n)) w n (pageRecords (actL p look C w (.call (.readParameters n))).1) := by
  have h := worldPagesL_pageLog p look C w n []
  unfold actL wcallL World.readParametersL
  dsimp only
  cases hx : w.readPagesL p look C n [] with
  | mk l o =>
    obtain ⟨o, s'⟩ := o
    rw [hx] at h
    have h0 : pageRecords [info "Reading device parameters" [("read_from", .int n)]] = [] := rfl
    have h1 : ∀ d, pageRecords [debug "Received total parameters data" [("data", .bytes d)]] = [] := fun d => rfl
    cases o with
    | returned d =>
      dsimp only
      rw [pageRecords_append, pageRecords_append, h0, h1, List.append_nil, List.nil_append]
      exact h
    | raised x => dsimp only; rw [pageRecords_append, h0, List.nil_append]; exact h
    | pending => dsimp only; rw [pageRecords_append, h0, List.nil_append]; exact h

/-! Examples -/

-- two pages, the second one the last
example : (pageRecords (callL exPrint (.foreign "T".toList) idCipher (exSys 2 exPageRecvs) (.readParameters 5)).1).map
      (·.texts exPrint []) =
    [["Requesting device parameters".toList, "object_count=5".toList],
     ["Received device parameters".toList, "object_amount=1".toList],
     ["More parameters available".toList, "next_object_count=6".toList],
     ["Requesting device parameters".toList, "object_count=6".toList],
     ["Received device parameters".toList, "object_amount=1".toList]] := by decide +kernel

-- the second answer does not come
example : (pageRecords (actL exPrint exTcpLook idCipher { exShared with
      password := "000000".toList
      inbox := fun _ => [.seg (exWire .readScadaParameters
        (exPage 0 false (record (UInt8.ofNat ObjType.BINARY.value, exBinary))))] } (.call (.readParameters 0))).1).map
      (·.texts exPrint []) =
    [["Requesting device parameters".toList, "object_count=0".toList],
     ["Received device parameters".toList, "object_amount=1".toList],
     ["More parameters available".toList, "next_object_count=1".toList],
     ["Requesting device parameters".toList, "object_count=1".toList]] := by decide +kernel

end Elgas
